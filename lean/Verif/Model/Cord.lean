import Verif.Py

/-!
# The pipelines of the CORD soft switch

`/repo/cord_softswitch_pipeline` (a Python program that talks to BESS, 414 lines) and `/repo/cord_softswitch_pipeline.bess` (a BESS
configuration, 315 lines): both create a graph of packet processing modules and fill their tables.  Each is modelled as the list of operations
it performs, in its order (`pyScript`, `bessScript`), and `exec` is what BESS does with them.

BESS is not part of the repository.  What is assumed of it is `Env`, `Net.exec1` and `Net.pass`, the documented meaning of the module classes:

* `WildcardMatch`: a matching rule of highest priority, else the default gate; `ExactMatch`: the rule with the given values, else the default gate;
* `BPF`: a matching filter of highest priority, else gate 0 (the meaning of the filters is `Prim.holds`, as in pcap-filter(7));
* `Update` writes bytes into the packet, `SetMetadata` into its metadata, `VLANPop` takes the tag out, `HashLB` takes some gate below its
  number of gates; the encapsulation modules do anything to the packet; `Sink` ends it; a packet that leaves by a gate without connection is dropped;
* integers are written big-endian into packets and little-endian (host order) into metadata; byte strings as they are.

Open (and so universally quantified in the theorems): what happens to a byte string that has not the size of its field (`Env.strict`, an error, or
`Env.cut`), the default gate of a match module before `set_default_gate` (`Env.dflt`; in BESS it drops packets), the bytes after the end of
a packet (`Env.beyond`), the hash of `HashLB` (`Env.hash`), the encapsulation (`Env.encap`).
-/

namespace Twink.Cord

/-- Names of metadata. cord_softswitch_pipeline L35-42, .bess L40-47 -/
inductive Md where
  | inPort | tunId | tunSrc | tunDst
  deriving DecidableEq, Repr

/-- A field: bytes of the packet, or metadata. -/
inductive Field where
  | pkt (off size : Nat)
  | md (name : Md) (size : Nat)
  deriving DecidableEq, Repr

def Field.size : Field → Nat
  | .pkt _ n => n
  | .md _ n => n

/-- cord_softswitch_pipeline L22-42, .bess L27-47 -/
def HWSRC : Field := .pkt 0 6
def HWDST : Field := .pkt 6 6
def ETHTYPE : Field := .pkt 12 2
def VLANID : Field := .pkt 14 2
def IPSRC : Field := .pkt 26 4
def IPDST : Field := .pkt 30 4
def INPORT : Field := .md .inPort 1
def TUNID : Field := .md .tunId 4
def TUNDST : Field := .md .tunDst 4

/-- cord_softswitch_pipeline L44-45, .bess L49-50 -/
def TYPE_QINQ : Nat := 0x88A8
def TYPE_VLAN : Nat := 0x8100

/-- A value: a Python integer or byte string. -/
inductive Val where
  | int (n : Nat)
  | str (b : Bytes)
  deriving DecidableEq, Repr

/-- `aton_ip`. cord_softswitch_pipeline L10-11, .bess L3-4 -/
def ip (a b c d : UInt8) : Val := .str [a, b, c, d]

/-- `aton_mac`. cord_softswitch_pipeline L13-14, .bess L8-9 -/
def mac (a b c d e f : UInt8) : Val := .str [a, b, c, d, e, f]

/-- A character of a hexadecimal digit. -/
def hexChar (n : UInt8) : UInt8 := if n < 10 then 48 + n else 87 + n

def hex2 (b : UInt8) : Bytes := [hexChar (b / 16), hexChar (b % 16)]

/-- The text 'fa:16:…' itself, without `aton_mac`: seventeen characters. -/
def macText (a b c d e f : UInt8) : Val :=
  .str (hex2 a ++ 58 :: (hex2 b ++ 58 :: (hex2 c ++ 58 :: (hex2 d ++ 58 :: (hex2 e ++ 58 :: hex2 f)))))

/-- Primitives of pcap filters. -/
inductive Prim where
  | ip | arp | udp
  | dstHost (a : Bytes)
  | srcPort (n : Nat)
  | dstPort (n : Nat)
  | etherProto (n : Nat)
  | vlan (n : Nat)
  deriving DecidableEq, Repr

/-- A conjunction; after `vlan` the offsets are those of the tagged frame. -/
abbrev Filter := List Prim

/-- Module classes with their arguments. -/
inductive Cls where
  | sink
  | wildcard (fields : List Field)
  | exact (fields : List Field)
  | bpf
  | update (l : List (Field × Val))
  | setMetadata (l : List (Field × Val))
  | vlanPop
  | hashLB (n : Nat)
  | vxlanEncap | ipEncap | etherEncap
  deriving DecidableEq, Repr

/-- Names of modules.  `anon` are the modules without a name in the .bess file, numbered here in the order of creation. -/
inductive Name where
  | OUT (i : Nat) | DRP (i : Nat) | LCL | CTL
  | t0_start | t0_inport | t0_p2 | t0_default | t1_start | t2_start | t3_start | t4_start | t5_start | t6_start
  | t4u1 | t4u2 | t4s2 | t4u3 | t4s3 | t4u4 | vlan_pop | grp_start | gru1 | grs1 | gru2
  | encap_and_out1 | ip_encap | ether_encap
  | anon (i : Nat)
  deriving DecidableEq, Repr

/-- Commands to modules: the `add` of the three classes with tables, `set_default_gate` and `set_mode`. -/
inductive Cmd where
  | addWildcard (priority : Nat) (values masks : List Val) (gate : Nat)
  | addExact (fields : List Val) (gate : Nat)
  | addFilter (priority : Nat) (filter : Filter) (gate : Nat)
  | setDefaultGate (gate : Nat)
  | setMode
  deriving DecidableEq, Repr

/-- Operations. `connect a b g` is `connect_modules(a, b, g, 0)` and `a:g -> b`. -/
inductive Op where
  | create (cls : Cls) (name : Name)
  | connect (a b : Name) (gate : Nat)
  | run (name : Name) (cmd : Cmd)
  deriving DecidableEq, Repr

/-- What BESS leaves open. -/
structure Env where
  /-- byte strings of another size than their field are an error -/
  strict : Bool
  /-- otherwise this is what they are made to -/
  cut : Nat → Bytes → Bytes
  /-- the default gate of a match module at the start -/
  dflt : Option Nat
  /-- the byte at an offset after the end of the packet -/
  beyond : Nat → UInt8
  /-- the hash of the packet -/
  hash : Bytes → Nat
  /-- the three encapsulation modules -/
  encap : Cls → Bytes → (Md → Bytes) → Bytes

/-- A module: class, tables, default gate (`none`: not set). -/
structure Mod where
  cls : Cls
  wild : List (Nat × List Val × List Val × Nat)
  exact : List (List Val × Nat)
  filters : List (Nat × Filter × Nat)
  dflt : Option Nat
  deriving DecidableEq, Repr

/-- The graph. -/
structure Net where
  mods : List (Name × Mod)
  links : List ((Name × Nat) × Name)
  deriving DecidableEq, Repr

def Net.mod (n : Net) (name : Name) : Option Mod := n.mods.lookup name

def Net.next (n : Net) (name : Name) (gate : Nat) : Option Name := n.links.lookup (name, gate)

/-- A value fits its field. -/
def fitsField (strict : Bool) (f : Field) : Val → Bool
  | .int v => v < 256 ^ f.size
  | .str b => b.length = f.size || !strict

/-- As many values as fields, and each fits. -/
def fitFields (strict : Bool) (fs : List Field) (vs : List Val) : Bool :=
  fs.length = vs.length && (fs.zip vs).all fun (f, v) => fitsField strict f v

/-- The arguments of a new module fit their fields. -/
def Cls.ok (strict : Bool) : Cls → Bool
  | .update l => l.all fun (f, v) => fitsField strict f v
  | .setMetadata l => l.all fun (f, v) => fitsField strict f v
  | _ => true

/-- A command given to a module. -/
def Mod.command (strict : Bool) (m : Mod) : Cmd → Option Mod
  | .addWildcard p vs ms g =>
    match m.cls with
    | .wildcard fs => if fitFields strict fs vs && fitFields strict fs ms then some { m with wild := m.wild ++ [(p, vs, ms, g)] } else none
    | _ => none
  | .addExact vs g =>
    match m.cls with
    | .exact fs => if fitFields strict fs vs then some { m with exact := m.exact ++ [(vs, g)] } else none
    | _ => none
  | .addFilter p f g => if m.cls = .bpf then some { m with filters := m.filters ++ [(p, f, g)] } else none
  | .setDefaultGate g =>
    match m.cls with
    | .wildcard _ => some { m with dflt := some g }
    | .exact _ => some { m with dflt := some g }
    | _ => none
  | .setMode =>
    match m.cls with
    | .hashLB _ => some m
    | _ => none

/-- One operation; `none` is an error of BESS. -/
def Net.exec1 (strict : Bool) (n : Net) : Op → Option Net
  | .create c name =>
    if (n.mod name).isSome then none
    else if c.ok strict then some { n with mods := n.mods ++ [(name, ⟨c, [], [], [], none⟩)] }
    else none
  | .connect a b g =>
    if (n.mod a).isSome && (n.mod b).isSome && (n.next a g).isNone then some { n with links := n.links ++ [((a, g), b)] } else none
  | .run name c =>
    match n.mod name with
    | some m =>
      match m.command strict c with
      | some m' => some { n with mods := n.mods.map fun (x, k) => if x = name then (x, m') else (x, k) }
      | none => none
    | none => none

/-- A script; an error ends it. -/
def exec (strict : Bool) (ops : List Op) : Option Net := ops.foldlM (Net.exec1 strict) ⟨[], []⟩

/-- /repo/cord_softswitch_pipeline, L78-175: create the modules. -/
def pyCreate : List Op :=
  [ .create .sink (.OUT 1), .create .sink (.OUT 2), .create .sink (.OUT 3), .create .sink (.OUT 4),
    .create .sink (.DRP 1), .create .sink (.DRP 2), .create .sink (.DRP 3), .create .sink (.DRP 4), .create .sink (.DRP 5),
    .create .sink .LCL, .create .sink .CTL,
    .create (.wildcard [ETHTYPE, VLANID]) .t0_start,
    .create (.exact [INPORT]) .t0_inport,
    .create .bpf .t0_p2,
    .create .bpf .t0_default,
    .create (.wildcard [INPORT, IPSRC]) .t1_start,
    .create (.wildcard [IPSRC, IPDST]) .t2_start,
    .create (.exact [INPORT]) .t3_start,
    .create (.exact [IPDST]) .t4_start,
    .create (.update [(HWDST, macText 0xfa 0x16 0x3e 0xcf 0xf2 0x56)]) .t4u1,
    .create (.update [(HWDST, macText 0xfa 0x16 0x3e 0xf3 0x5e 0x82)]) .t4u2,
    .create (.setMetadata [(TUNID, .int 0x40c), (TUNDST, ip 1 1 1 2)]) .t4s2,
    .create (.update [(HWDST, macText 0xfa 0x16 0x3e 0xda 0x05 0xed)]) .t4u3,
    .create (.setMetadata [(TUNID, .int 0x406), (TUNDST, ip 1 1 1 2)]) .t4s3,
    .create (.update [(HWDST, macText 0xfa 0x16 0x3e 0x3e 0x82 0xe8)]) .t4u4,
    .create (.exact [TUNID, HWSRC]) .t5_start,
    .create .bpf .t6_start,
    .create .vlanPop .vlan_pop,
    .create (.hashLB 2) .grp_start,
    .create (.update [(HWDST, macText 0xfa 0x16 0x3e 0xf3 0x5e 0x82)]) .gru1,
    .create (.setMetadata [(TUNID, .int 0x40c), (TUNDST, ip 1 1 1 2)]) .grs1,
    .create (.update [(HWDST, macText 0xfa 0x16 0x3e 0xcf 0xf2 0x56)]) .gru2,
    .create .vxlanEncap .encap_and_out1,
    .create .ipEncap .ip_encap,
    .create .etherEncap .ether_encap ]

/-- /repo/cord_softswitch_pipeline, L178-236: connect the modules. -/
def pyConnect : List Op :=
  [ .connect .encap_and_out1 .ip_encap 0, .connect .ip_encap .ether_encap 0, .connect .ether_encap (.OUT 1) 0,
    .connect .t0_start .t6_start 1, .connect .t0_start .t0_inport 0,
    .connect .t0_inport .t0_p2 1, .connect .t0_inport (.OUT 2) 2, .connect .t0_inport .t0_default 0,
    .connect .t0_p2 .LCL 1, .connect .t0_p2 .t0_default 0,
    .connect .t0_default .CTL 1, .connect .t0_default .t1_start 0,
    .connect .t1_start .t5_start 0, .connect .t1_start .t4_start 1, .connect .t1_start .t2_start 2, .connect .t1_start .t3_start 3,
    .connect .t1_start (.DRP 1) 4,
    .connect .t2_start .grp_start 1, .connect .t2_start .t4_start 2, .connect .t2_start (.DRP 2) 3, .connect .t2_start (.OUT 2) 0,
    .connect .t3_start .grp_start 1, .connect .t3_start (.DRP 3) 0,
    .connect .t4_start .t4u1 1, .connect .t4u1 (.OUT 4) 0,
    .connect .t4_start .t4u2 2, .connect .t4u2 .t4s2 0, .connect .t4s2 .encap_and_out1 0,
    .connect .t4_start .t4u3 3, .connect .t4u3 .t4s3 0, .connect .t4s3 .encap_and_out1 0,
    .connect .t4_start .t4u4 4, .connect .t4u4 (.OUT 3) 0,
    .connect .t5_start (.OUT 3) 1, .connect .t5_start (.OUT 4) 2, .connect .t5_start (.DRP 4) 0,
    .connect .t6_start .CTL 1, .connect .t6_start .vlan_pop 2, .connect .vlan_pop (.OUT 2) 0, .connect .t6_start (.DRP 5) 0,
    .connect .grp_start .gru1 0, .connect .gru1 .grs1 0, .connect .grs1 .encap_and_out1 0,
    .connect .grp_start .gru2 1, .connect .gru2 (.OUT 4) 0 ]

/-- /repo/cord_softswitch_pipeline, L243-414: fill the tables.  L368 adds the rule of table 3 to `t0_inport`; there is no `set_default_gate` of
`t0_inport`. -/
def pyRules : List Op :=
  [ .run .t0_start (.addWildcard 55000 [.int TYPE_VLAN, .int 0x1000] [.int 0xffff, .int 0x1000] 1),
    .run .t0_start (.addWildcard 55000 [.int TYPE_QINQ, .int 0x1000] [.int 0xffff, .int 0x1000] 1),
    .run .t0_inport (.addExact [.int 2] 1),
    .run .t0_inport (.addExact [.int 101] 2),
    .run .t0_p2 (.addFilter 50000 [.ip, .dstHost [1, 1, 1, 1]] 1),
    .run .t0_p2 (.addFilter 50000 [.arp, .dstHost [1, 1, 1, 1]] 1),
    .run .t0_p2 (.addFilter 50000 [.udp, .dstPort 4789] 1),
    .run .t0_default (.addFilter 40000 [.udp, .srcPort 68, .dstPort 67] 1),
    .run .t0_default (.addFilter 40000 [.etherProto 0x88cc] 1),
    .run .t0_default (.addFilter 40000 [.etherProto 0x8942] 1),
    .run .t0_default (.addFilter 40000 [.arp] 1),
    .run .t1_start (.addWildcard 5000 [.int 1, ip 0 0 0 0] [.int 0xff, ip 0 0 0 0] 0),
    .run .t1_start (.addWildcard 5000 [.int 2, ip 0 0 0 0] [.int 0xff, ip 0 0 0 0] 1),
    .run .t1_start (.addWildcard 5000 [.int 3, ip 10 10 10 3] [.int 0xff, ip 255 255 255 255] 2),
    .run .t1_start (.addWildcard 5000 [.int 4, ip 10 10 12 3] [.int 0xff, ip 255 255 255 255] 2),
    .run .t1_start (.addWildcard 4000 [.int 3, ip 0 0 0 0] [.int 0xff, ip 0 0 0 0] 3),
    .run .t1_start (.addWildcard 4000 [.int 3, ip 0 0 0 0] [.int 0xff, ip 0 0 0 0] 3),
    .run .t1_start (.setDefaultGate 4),
    .run .t2_start (.addWildcard 50000 [ip 10 10 10 0, ip 10 10 12 1] [ip 255 255 255 0, ip 255 255 255 255] 1),
    .run .t2_start (.addWildcard 5000 [ip 10 10 12 0, ip 10 10 12 0] [ip 255 255 255 0, ip 255 255 255 0] 2),
    .run .t2_start (.addWildcard 5000 [ip 10 10 12 0, ip 10 10 10 0] [ip 255 255 255 0, ip 255 255 255 0] 2),
    .run .t2_start (.addWildcard 5000 [ip 10 10 10 0, ip 10 10 12 0] [ip 255 255 255 0, ip 255 255 255 0] 2),
    .run .t2_start (.addWildcard 5000 [ip 10 10 10 0, ip 10 10 10 0] [ip 255 255 255 0, ip 255 255 255 0] 2),
    .run .t2_start (.addWildcard 4000 [ip 0 0 0 0, ip 10 10 10 0] [ip 0 0 0 0, ip 255 255 255 0] 3),
    .run .t2_start (.addWildcard 4000 [ip 0 0 0 0, ip 10 10 12 0] [ip 0 0 0 0, ip 255 255 255 0] 3),
    .run .t2_start (.setDefaultGate 0),
    .run .t0_inport (.addExact [.int 3] 1),
    .run .t3_start (.setDefaultGate 0),
    .run .t4_start (.addExact [ip 10 10 12 3] 1),
    .run .t4_start (.addExact [ip 10 10 12 2] 2),
    .run .t4_start (.addExact [ip 10 10 10 2] 3),
    .run .t4_start (.addExact [ip 10 10 10 3] 4),
    .run .t5_start (.addExact [.int 0x406, mac 0xfa 0x16 0x3e 0x3e 0x82 0xe8] 1),
    .run .t5_start (.addExact [.int 0x40c, mac 0xfa 0x16 0x3e 0xcf 0xf2 0x56] 2),
    .run .t5_start (.setDefaultGate 0),
    .run .t6_start (.addFilter 50000 [.vlan 500, .arp] 1),
    .run .t6_start (.addFilter 5000 [.vlan 500] 2),
    .run .grp_start .setMode ]

/-- /repo/cord_softswitch_pipeline -/
def pyScript : List Op := pyCreate ++ pyConnect ++ pyRules

/-- /repo/cord_softswitch_pipeline.bess, from L19.  `a -> B() -> c` creates `B` and connects. -/
def bessScript : List Op :=
  [ -- L19-25
    .create .sink (.OUT 1), .create .sink (.OUT 2), .create .sink (.OUT 3), .create .sink (.OUT 4), .create .sink .LCL, .create .sink .CTL,
    -- L54-84
    .create (.wildcard [ETHTYPE, VLANID]) .t0_start,
    .create (.exact [INPORT]) .t0_inport,
    .create .bpf .t0_p2,
    .create .bpf .t0_default,
    .create (.wildcard [INPORT, IPSRC]) .t1_start,
    .create (.wildcard [IPSRC, IPDST]) .t2_start,
    .create (.exact [INPORT]) .t3_start,
    .create (.exact [IPDST]) .t4_start,
    .create (.exact [TUNID, HWSRC]) .t5_start,
    .create .bpf .t6_start,
    .create (.hashLB 2) .grp_start,
    -- L86
    .create .vxlanEncap .encap_and_out1, .create .ipEncap (.anon 0), .create .etherEncap (.anon 1),
    .connect .encap_and_out1 (.anon 0) 0, .connect (.anon 0) (.anon 1) 0, .connect (.anon 1) (.OUT 1) 0,
    -- L91-101
    .run .t0_start (.addWildcard 55000 [.int TYPE_VLAN, .int 0x1000] [.int 0xffff, .int 0x1000] 1),
    .run .t0_start (.addWildcard 55000 [.int TYPE_QINQ, .int 0x1000] [.int 0xffff, .int 0x1000] 1),
    .connect .t0_start .t6_start 1,
    .connect .t0_start .t0_inport 0,
    -- L106-113
    .run .t0_inport (.addExact [.int 2] 1),
    .connect .t0_inport .t0_p2 1,
    .run .t0_inport (.addExact [.int 101] 2),
    .connect .t0_inport (.OUT 2) 2,
    .run .t0_inport (.setDefaultGate 0),
    .connect .t0_inport .t0_default 0,
    -- L118-131
    .run .t0_p2 (.addFilter 50000 [.ip, .dstHost [1, 1, 1, 1]] 1),
    .connect .t0_p2 .LCL 1,
    .run .t0_p2 (.addFilter 50000 [.arp, .dstHost [1, 1, 1, 1]] 1),
    .run .t0_p2 (.addFilter 50000 [.udp, .dstPort 4789] 1),
    .connect .t0_p2 .t0_default 0,
    -- L136-153
    .run .t0_default (.addFilter 40000 [.udp, .srcPort 68, .dstPort 67] 1),
    .connect .t0_default .CTL 1,
    .run .t0_default (.addFilter 40000 [.etherProto 0x88cc] 1),
    .run .t0_default (.addFilter 40000 [.etherProto 0x8942] 1),
    .run .t0_default (.addFilter 40000 [.arp] 1),
    .connect .t0_default .t1_start 0,
    -- L158-193
    .run .t1_start (.addWildcard 5000 [.int 1, ip 0 0 0 0] [.int 0xff, ip 0 0 0 0] 0),
    .connect .t1_start .t5_start 0,
    .run .t1_start (.addWildcard 5000 [.int 2, ip 0 0 0 0] [.int 0xff, ip 0 0 0 0] 1),
    .connect .t1_start .t4_start 1,
    .run .t1_start (.addWildcard 5000 [.int 3, ip 10 10 10 3] [.int 0xff, ip 255 255 255 255] 2),
    .connect .t1_start .t2_start 2,
    .run .t1_start (.addWildcard 5000 [.int 4, ip 10 10 12 3] [.int 0xff, ip 255 255 255 255] 2),
    .run .t1_start (.addWildcard 4000 [.int 3, ip 0 0 0 0] [.int 0xff, ip 0 0 0 0] 3),
    .connect .t1_start .t3_start 3,
    .run .t1_start (.addWildcard 4000 [.int 3, ip 0 0 0 0] [.int 0xff, ip 0 0 0 0] 3),
    .run .t1_start (.setDefaultGate 4),
    .create .sink (.anon 2), .connect .t1_start (.anon 2) 4,
    -- L199-238
    .run .t2_start (.addWildcard 50000 [ip 10 10 10 0, ip 10 10 12 1] [ip 255 255 255 0, ip 255 255 255 255] 1),
    .connect .t2_start .grp_start 1,
    .run .t2_start (.addWildcard 5000 [ip 10 10 12 0, ip 10 10 12 0] [ip 255 255 255 0, ip 255 255 255 0] 2),
    .connect .t2_start .t4_start 2,
    .run .t2_start (.addWildcard 5000 [ip 10 10 12 0, ip 10 10 10 0] [ip 255 255 255 0, ip 255 255 255 0] 2),
    .run .t2_start (.addWildcard 5000 [ip 10 10 10 0, ip 10 10 12 0] [ip 255 255 255 0, ip 255 255 255 0] 2),
    .run .t2_start (.addWildcard 5000 [ip 10 10 10 0, ip 10 10 10 0] [ip 255 255 255 0, ip 255 255 255 0] 2),
    .run .t2_start (.addWildcard 4000 [ip 0 0 0 0, ip 10 10 10 0] [ip 0 0 0 0, ip 255 255 255 0] 3),
    .create .sink (.anon 3), .connect .t2_start (.anon 3) 3,
    .run .t2_start (.addWildcard 4000 [ip 0 0 0 0, ip 10 10 12 0] [ip 0 0 0 0, ip 255 255 255 0] 3),
    .run .t2_start (.setDefaultGate 0),
    .connect .t2_start (.OUT 2) 0,
    -- L243-247
    .run .t3_start (.addExact [.int 3] 1),
    .connect .t3_start .grp_start 1,
    .run .t3_start (.setDefaultGate 0),
    .create .sink (.anon 4), .connect .t3_start (.anon 4) 0,
    -- L252-272
    .run .t4_start (.addExact [ip 10 10 12 3] 1),
    .create (.update [(HWDST, macText 0xfa 0x16 0x3e 0xcf 0xf2 0x56)]) (.anon 5), .connect .t4_start (.anon 5) 1, .connect (.anon 5) (.OUT 4) 0,
    .run .t4_start (.addExact [ip 10 10 12 2] 2),
    .create (.update [(HWDST, macText 0xfa 0x16 0x3e 0xf3 0x5e 0x82)]) (.anon 6),
    .create (.setMetadata [(TUNID, .int 0x40c), (TUNDST, ip 1 1 1 2)]) (.anon 7),
    .connect .t4_start (.anon 6) 2, .connect (.anon 6) (.anon 7) 0, .connect (.anon 7) .encap_and_out1 0,
    .run .t4_start (.addExact [ip 10 10 10 2] 3),
    .create (.update [(HWDST, macText 0xfa 0x16 0x3e 0xda 0x05 0xed)]) (.anon 8),
    .create (.setMetadata [(TUNID, .int 0x406), (TUNDST, ip 1 1 1 2)]) (.anon 9),
    .connect .t4_start (.anon 8) 3, .connect (.anon 8) (.anon 9) 0, .connect (.anon 9) .encap_and_out1 0,
    .run .t4_start (.addExact [ip 10 10 10 3] 4),
    .create (.update [(HWDST, macText 0xfa 0x16 0x3e 0x3e 0x82 0xe8)]) (.anon 10), .connect .t4_start (.anon 10) 4, .connect (.anon 10) (.OUT 3) 0,
    -- L276-285
    .run .t5_start (.addExact [.int 0x406, mac 0xfa 0x16 0x3e 0x3e 0x82 0xe8] 1),
    .connect .t5_start (.OUT 3) 1,
    .run .t5_start (.addExact [.int 0x40c, mac 0xfa 0x16 0x3e 0xcf 0xf2 0x56] 2),
    .connect .t5_start (.OUT 4) 2,
    .run .t5_start (.setDefaultGate 0),
    .create .sink (.anon 11), .connect .t5_start (.anon 11) 0,
    -- L288-298
    .run .t6_start (.addFilter 50000 [.vlan 500, .arp] 1),
    .connect .t6_start .CTL 1,
    .create .vlanPop (.anon 12), .connect .t6_start (.anon 12) 2, .connect (.anon 12) (.OUT 2) 0,
    .run .t6_start (.addFilter 5000 [.vlan 500] 2),
    .create .sink (.anon 13), .connect .t6_start (.anon 13) 0,
    -- L303-314
    .run .grp_start .setMode,
    .create (.update [(HWDST, macText 0xfa 0x16 0x3e 0xf3 0x5e 0x82)]) (.anon 14),
    .create (.setMetadata [(TUNID, .int 0x40c), (TUNDST, ip 1 1 1 2)]) (.anon 15),
    .connect .grp_start (.anon 14) 0, .connect (.anon 14) (.anon 15) 0, .connect (.anon 15) .encap_and_out1 0,
    .create (.update [(HWDST, macText 0xfa 0x16 0x3e 0xcf 0xf2 0x56)]) (.anon 16), .connect .grp_start (.anon 16) 1, .connect (.anon 16) (.OUT 4) 0 ]

/-! ## What the modules do -/

/-- A packet with its metadata. -/
structure Packet where
  data : Bytes
  md : Md → Bytes

/-- Bytes of the packet, with what lies after its end. -/
def Env.read (e : Env) (d : Bytes) (off size : Nat) : Bytes :=
  (List.range size).map fun i => d.getD (off + i) (e.beyond (off + i))

/-- The bytes of a field. -/
def Env.field (e : Env) (p : Packet) : Field → Bytes
  | .pkt o n => e.read p.data o n
  | .md m _ => p.md m

/-- A value as bytes. -/
def Env.bytes (e : Env) (f : Field) : Val → Bytes
  | .int v =>
    match f with
    | .pkt _ n => encBE n v
    | .md _ n => (encBE n v).reverse
  | .str b => if b.length = f.size then b else e.cut f.size b

/-- A rule of a `WildcardMatch` matches: field & mask = value & mask, for all fields. -/
def Env.wildMatch (e : Env) (p : Packet) (fs : List Field) (vs ms : List Val) : Bool :=
  (fs.zip (vs.zip ms)).all fun (f, v, m) =>
    List.zipWith (· &&& ·) (e.field p f) (e.bytes f m) == List.zipWith (· &&& ·) (e.bytes f v) (e.bytes f m)

/-- A rule of an `ExactMatch` matches. -/
def Env.exactMatch (e : Env) (p : Packet) (fs : List Field) (vs : List Val) : Bool :=
  (fs.zip vs).all fun (f, v) => e.field p f == e.bytes f v

/-- Two bytes of a packet; a filter that reads after the end does not match. -/
def u16 (d : Bytes) (off : Nat) : Option Nat :=
  match d[off]?, d[off + 1]? with
  | some a, some b => some (a.toNat * 256 + b.toNat)
  | _, _ => none

def u8 (d : Bytes) (off : Nat) : Option Nat := d[off]?.map UInt8.toNat

/-- A transport port: `off` is 0 for the source and 2 for the destination. IPv4 header of any length, no later fragment; IPv6 without extension header. -/
def portIs (d : Bytes) (s off n : Nat) : Bool :=
  (u16 d (12 + s) == some 0x86dd && (u8 d (20 + s) == some 132 || u8 d (20 + s) == some 6 || u8 d (20 + s) == some 17) &&
    u16 d (54 + off + s) == some n) ||
  (u16 d (12 + s) == some 0x0800 && (u8 d (23 + s) == some 132 || u8 d (23 + s) == some 6 || u8 d (23 + s) == some 17) &&
    ((u16 d (20 + s)).map (· % 8192) == some 0) &&
    match u8 d (14 + s) with
    | some v => u16 d (14 + s + 4 * (v % 16) + off) == some n
    | none => false)

/-- pcap-filter(7), on Ethernet; `s` is 4 for every `vlan` before. -/
def Prim.holds (d : Bytes) (s : Nat) : Prim → Bool
  | .ip => u16 d (12 + s) == some 0x0800
  | .arp => u16 d (12 + s) == some 0x0806
  | .udp =>
    (u16 d (12 + s) == some 0x86dd && (u8 d (20 + s) == some 17 || (u8 d (20 + s) == some 44 && u8 d (54 + s) == some 17))) ||
    (u16 d (12 + s) == some 0x0800 && u8 d (23 + s) == some 17)
  | .dstHost a =>
    (u16 d (12 + s) == some 0x0800 && (d.drop (30 + s)).take 4 == a) ||
    ((u16 d (12 + s) == some 0x0806 || u16 d (12 + s) == some 0x8035) && (d.drop (38 + s)).take 4 == a)
  | .srcPort n => portIs d s 0 n
  | .dstPort n => portIs d s 2 n
  | .etherProto n => u16 d (12 + s) == some n
  | .vlan n =>
    (u16 d (12 + s) == some 0x8100 || u16 d (12 + s) == some 0x88a8 || u16 d (12 + s) == some 0x9100) &&
    ((u16 d (14 + s)).map (· % 4096) == some n)

def Prim.shift : Prim → Nat
  | .vlan _ => 4
  | _ => 0

def holds (d : Bytes) : Nat → Filter → Bool
  | _, [] => true
  | s, p :: ps => p.holds d s && holds d (s + p.shift) ps

/-- The first of the rules with highest priority among those that match. -/
def best : List (Nat × Nat) → Option (Nat × Nat)
  | [] => none
  | (p, g) :: l =>
    match best l with
    | some (q, h) => if q ≤ p then some (p, g) else some (q, h)
    | none => some (p, g)

/-- The matching rules of a module: priorities and gates. -/
def Env.matching (e : Env) (p : Packet) (m : Mod) : List (Nat × Nat) :=
  match m.cls with
  | .wildcard fs => (m.wild.filter fun (_, vs, ms, _) => e.wildMatch p fs vs ms).map fun (q, _, _, g) => (q, g)
  | .exact fs => (m.exact.filter fun (vs, _) => e.exactMatch p fs vs).map fun (_, g) => (0, g)
  | .bpf => (m.filters.filter fun (_, f, _) => holds p.data 0 f).map fun (q, _, g) => (q, g)
  | _ => []

/-- Bytes written into a packet. -/
def write (d : Bytes) (off : Nat) (b : Bytes) : Bytes := d.take off ++ b ++ d.drop (off + b.length)

/-- `Update` and `SetMetadata`, field by field. -/
def Env.set (e : Env) (p : Packet) : List (Field × Val) → Packet
  | [] => p
  | (f, v) :: l =>
    match f with
    | .pkt o _ => e.set { p with data := write p.data o (e.bytes f v) } l
    | .md m _ => e.set { p with md := fun x => if x = m then e.bytes f v else p.md x } l

/-- The gate by which a packet leaves a module (`none`: it is dropped), and the packet. -/
def Env.pass (e : Env) (m : Mod) (p : Packet) : Option Nat × Packet :=
  match m.cls with
  | .sink => (none, p)
  | .wildcard _ => (match best (e.matching p m) with | some (_, g) => some g | none => (m.dflt <|> e.dflt), p)
  | .exact _ => (match best (e.matching p m) with | some (_, g) => some g | none => (m.dflt <|> e.dflt), p)
  | .bpf => (match best (e.matching p m) with | some (_, g) => some g | none => some 0, p)
  | .update l => (some 0, e.set p l)
  | .setMetadata l => (some 0, e.set p l)
  | .vlanPop => (some 0, { p with data := p.data.take 12 ++ p.data.drop 16 })
  | .hashLB n => (some (e.hash p.data % n), p)
  | .vxlanEncap => (some 0, { p with data := e.encap .vxlanEncap p.data p.md })
  | .ipEncap => (some 0, { p with data := e.encap .ipEncap p.data p.md })
  | .etherEncap => (some 0, { p with data := e.encap .etherEncap p.data p.md })

/-- Where a packet ends: in a sink, or lost at a module (no gate, or one without connection). -/
inductive End where
  | sink (name : Name) (p : Packet)
  | lost (name : Name) (p : Packet)

/-- A packet at a module, for so many modules; `none`: still on its way. -/
def Net.walk (n : Net) (e : Env) : Nat → Name → Packet → Option End
  | 0, _, _ => none
  | k + 1, name, p =>
    match n.mod name with
    | none => some (.lost name p)
    | some m =>
      if m.cls = .sink then some (.sink name p)
      else
        match (e.pass m p).1.bind (n.next name) with
        | some x => n.walk e k x (e.pass m p).2
        | none => some (.lost name (e.pass m p).2)

end Twink.Cord

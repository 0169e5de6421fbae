import Verif.Model.Consts
import Verif.Model.Of14Build
import Verif.Spec.Consts
import Verif.Props.Enum
import Verif.Proof.Consts
import Verif.Props.Of14Layout

/-!
# C78: the constants of the packages against the standard
-/

namespace Twink.Enum

/-- The constants of OpenFlow 1.3 that ofp4 defines with another value, and that value. -/
def wrong13 : List (Name × Nat) := [
  (txt! "OFPTFPT_WILDCARDS", 9), (txt! "OFPTFPT_WRITE_SETFIELD", 10), (txt! "OFPTFPT_WRITE_SETFIELD_MISS", 11),
  (txt! "OFPTFPT_APPLY_SETFIELD", 12), (txt! "OFPTFPT_APPLY_SETFIELD_MISS", 13), (txt! "OFPET_ROLE_REQUEST_FAILED", 10),
  (txt! "OFPET_METER_MOD_FAILED", 11), (txt! "OFPET_TABLE_FEATURES_FAILED", 12)]

/-- The constants of OpenFlow 1.3 that ofp4 does not define. -/
def missing13 : List Name := [
  txt! "OFPPF_PAUSE_ASYM", txt! "OFPFF_NO_BYT_COUNTS", txt! "OFPPMFC_BAD_PORT", txt! "OFPPMFC_BAD_HW_ADDR",
  txt! "OFPPMFC_BAD_CONFIG", txt! "OFPPMFC_BAD_ADVERTISE", txt! "OFPPMFC_EPERM", txt! "OFPET_QUEUE_OP_FAILED",
  txt! "OFPET_SWITCH_CONFIG_FAILED"]

/-- The constants of OpenFlow 1.4 that ofp5 defines with another value, and that value. -/
def wrong14 : List (Name × Nat) := [
  (txt! "OFPTFPT_WILDCARDS", 9), (txt! "OFPTFPT_WRITE_SETFIELD", 10), (txt! "OFPTFPT_WRITE_SETFIELD_MISS", 11),
  (txt! "OFPTFPT_APPLY_SETFIELD", 12), (txt! "OFPTFPT_APPLY_SETFIELD_MISS", 13), (txt! "OFPTFPT_TABLE_SYNC_FROM", 14),
  (txt! "OFPOSF_RX_PWR", 8), (txt! "OFPOSF_TX_BIAS", 16), (txt! "OFPOSF_TX_TEMP", 32), (txt! "OFPBCT_DISCARD_REQUEST", 4),
  (txt! "OFPBCT_DISCARD_REPLY", 5), (txt! "OFPACPT_EXPERIMENTER_SLAVE", 12), (txt! "OFPACPT_EXPERIMENTER_MASTER", 13),
  (txt! "OFPET_ROLE_REQUEST_FAILED", 10), (txt! "OFPET_METER_MOD_FAILED", 11), (txt! "OFPET_TABLE_FEATURES_FAILED", 12),
  (txt! "OFPET_ASYNC_CONFIG_FAILED", 13), (txt! "OFPET_FLOW_MONITOR_FAILED", 14), (txt! "OFPET_BUNDLE_FAILED", 15)]

/-- The constants of OpenFlow 1.4 that ofp5 does not define. -/
def missing14 : List Name := [
  txt! "OFPPF_PAUSE_ASYM", txt! "OFPFF_NO_BYT_COUNTS", txt! "OFPPMFC_BAD_PORT", txt! "OFPPMFC_BAD_HW_ADDR",
  txt! "OFPPMFC_BAD_CONFIG", txt! "OFPPMFC_BAD_ADVERTISE", txt! "OFPPMFC_EPERM", txt! "OFPBCT_COMMIT_REQUEST",
  txt! "OFPBCT_COMMIT_REPLY", txt! "OFPR_TABLE_MISS", txt! "OFPET_QUEUE_OP_FAILED", txt! "OFPET_SWITCH_CONFIG_FAILED",
  txt! "OFPET_BAD_PROPERTY"]

/-- C78. Importing the package `ofp4` defines, in whatever order dictionaries are iterated, every constant of OpenFlow 1.3 with the
value of the standard, except those in `wrong13`, which it defines with the values listed there, and those in `missing13`, which
it does not define. -/
theorem C78_of13_partial (scope : Scope) (es : List Enum) (h : List.Forall₂ Reorder ofp4Enums es) (c : Name) (v : Nat)
    (hc : (c, v) ∈ Std.of13) :
    (∀ w, (c, w) ∈ wrong13 → defineAll scope es c = some w ∧ w ≠ v) ∧
    (c ∈ missing13 → defineAll scope es c = scope c) ∧
    ((∀ w, (c, w) ∉ wrong13) → c ∉ missing13 → defineAll scope es c = some v) :=
  table_ok (by decide +kernel) (by decide +kernel) h hc

/-- C78. The same of the package `ofp5` and OpenFlow 1.4. -/
theorem C78_of14_partial (scope : Scope) (es : List Enum) (h : List.Forall₂ Reorder ofp5Enums es) (c : Name) (v : Nat)
    (hc : (c, v) ∈ Std.of14) :
    (∀ w, (c, w) ∈ wrong14 → defineAll scope es c = some w ∧ w ≠ v) ∧
    (c ∈ missing14 → defineAll scope es c = scope c) ∧
    ((∀ w, (c, w) ∉ wrong14) → c ∉ missing14 → defineAll scope es c = some v) :=
  table_ok (by decide +kernel) (by decide +kernel) h hc

/-- There is an order, that of the source. -/
example : List.Forall₂ Reorder ofp5Enums ofp5Enums := List.forall₂_same.2 fun _ _ => ⟨rfl, .refl _, .refl _⟩

/-- `FAILWD`, an entry with several words at an offset, and a flag. -/
example : (txt! "OFPTMPT_VACANCY", 3) ∈ Std.of14 ∧ (txt! "OFPET_BUNDLE_FAILED", 15) ∈ wrong14 ∧ (txt! "OFPFMF_NO_ABBREV", 32) ∈ Std.of14 := by
  decide +kernel

/-- The enumerations of both packages declare no name with two values: `C77_constants` applies to all of them. -/
theorem C77_all_consistent : ∀ e ∈ ofp4Enums ++ ofp5Enums ++ oxm4Enums ++ oxm5Enums, Consistent e := by
  have key : ∀ es, checkAll (tree es) (keyed es) = true → ∀ e ∈ es, Consistent e := by
    intro es h e he k n m h1 h2
    have e1 := declared_tree h ⟨e, he, k, h1, rfl⟩
    rw [declared_tree h ⟨e, he, k, h2, rfl⟩] at e1
    exact (Option.some.inj e1).symm
  intro e he
  simp only [List.mem_append] at he
  rcases he with ((he | he) | he) | he
  · exact key ofp4Enums (by decide +kernel) e he
  · exact key ofp5Enums (by decide +kernel) e he
  · exact key oxm4Enums (by decide +kernel) e he
  · exact key oxm5Enums (by decide +kernel) e he

/-- The hypotheses of the theorems of C77 are met by the flags of VLAN identifiers: PRESENT is bit 12, NONE no bit. -/
example : ∃ e ∈ oxm5Enums, Consistent e ∧ FlagOf (txt! "PRESENT") 4096 e.bitshifts ∧ FlagOf (txt! "NONE") 0 e.bitshifts ∧
    bitnames e 4097 = [txt! "OFPVID_PRESENT"] ∧ bitnames e 1 = [txt! "OFPVID_NONE"] ∧ name e 4096 = some (txt! "OFPVID_PRESENT") := by
  have h : ∃ e, oxm5Enums.find? (fun e => e.pre == txt! "OFPVID") = some e ∧ (txt! "PRESENT", 4096) ∈ itemsBitshifts e.bitshifts ∧
      (txt! "NONE", 0) ∈ itemsBitshifts e.bitshifts ∧ bitnames e 4097 = [txt! "OFPVID_PRESENT"] ∧ bitnames e 1 = [txt! "OFPVID_NONE"] ∧
      name e 4096 = some (txt! "OFPVID_PRESENT") :=
    ⟨_, rfl, by decide +kernel, by decide +kernel, by decide +kernel, by decide +kernel, by decide +kernel⟩
  obtain ⟨e, hm, h1, h2, h3⟩ := h
  have hm := List.mem_of_find?_eq_some hm
  exact ⟨e, hm, C77_all_consistent e (by simp [hm]), (mem_itemsBitshifts _ _ _).1 h1, (mem_itemsBitshifts _ _ _).1 h2, h3⟩

/-- C77 is false of the flags of bundles: ATOMIC is the constant 1, yet no value, not even 1, has names. -/
theorem C77_bundle_flags_refuted : ∃ e ∈ ofp5Enums, Declares e (txt! "ATOMIC") 1 ∧ fullName e (txt! "ATOMIC") = txt! "OFPBF_ATOMIC" ∧
    ∀ v, bitnames e v = [] := by
  have h : ∃ e, ofp5Enums.find? (fun e => e.pre == txt! "OFPBF") = some e ∧ (txt! "ATOMIC", 1) ∈ items e ∧
      fullName e (txt! "ATOMIC") = txt! "OFPBF_ATOMIC" ∧ e.bitshifts = .none := ⟨_, rfl, by decide +kernel, by decide +kernel, rfl⟩
  obtain ⟨e, hm, hd, hf, hb⟩ := h
  exact ⟨e, List.mem_of_find?_eq_some hm, (mem_items e _ _).1 hd, hf, fun v => C77_bitnames_refuted e hb v⟩

/-- C78 is false of the code: a request to discard a bundle, built with the package's constant for it, is on the wire the
standard's request to commit the bundle. -/
theorem C78_discard_refuted (scope : Scope) (es : List Enum) (h : List.Forall₂ Reorder ofp5Enums es) :
    ∃ t, defineAll scope es (txt! "OFPBCT_DISCARD_REQUEST") = some t ∧ (txt! "OFPBCT_COMMIT_REQUEST", t) ∈ Std.of14 ∧
      ∀ (rnd bundle flags : Nat) (bs : Bytes), Of14.buildBundleCtrl rnd .none bundle t flags .none = .ok bs →
        slice bs 12 14 = Spec.be16 t := by
  refine ⟨4, ?_, by decide +kernel, fun rnd bundle flags bs hb => ?_⟩
  · exact ((C78_of14_partial scope es h _ 6 (by decide +kernel)).1 4 (by decide +kernel)).1
  · rw [Of14.C76_layout_partial rnd .none (.bundleCtrl bundle 4 flags .none) bs trivial hb]
    rfl

/-- C78 is false of the code: the package names the type of an error wrongly. An error of the standard's type METER_MOD_FAILED is given
the name of TABLE_FEATURES_FAILED, in both versions; with 1.4, what the standard calls BAD_PROPERTY is called FLOW_MONITOR_FAILED. -/
theorem C78_error_names_refuted :
    (txt! "OFPET_METER_MOD_FAILED", 12) ∈ Std.of13 ∧ (txt! "OFPET_METER_MOD_FAILED", 12) ∈ Std.of14 ∧
    (txt! "OFPET_BAD_PROPERTY", 14) ∈ Std.of14 ∧
    (∃ e ∈ ofp4Enums, e.pre = txt! "OFPET" ∧ name e 12 = some (txt! "OFPET_TABLE_FEATURES_FAILED")) ∧
    (∃ e ∈ ofp5Enums, e.pre = txt! "OFPET" ∧ name e 12 = some (txt! "OFPET_TABLE_FEATURES_FAILED") ∧
      name e 14 = some (txt! "OFPET_FLOW_MONITOR_FAILED")) := by
  have h4 : ∃ e, ofp4Enums.find? (fun e => e.pre == txt! "OFPET") = some e ∧ e.pre = txt! "OFPET" ∧
      name e 12 = some (txt! "OFPET_TABLE_FEATURES_FAILED") := ⟨_, rfl, by decide +kernel, by decide +kernel⟩
  have h5 : ∃ e, ofp5Enums.find? (fun e => e.pre == txt! "OFPET") = some e ∧ e.pre = txt! "OFPET" ∧
      name e 12 = some (txt! "OFPET_TABLE_FEATURES_FAILED") ∧ name e 14 = some (txt! "OFPET_FLOW_MONITOR_FAILED") :=
    ⟨_, rfl, by decide +kernel, by decide +kernel, by decide +kernel⟩
  obtain ⟨e4, m4, p4, n4⟩ := h4
  obtain ⟨e5, m5, p5, n5, n5'⟩ := h5
  exact ⟨by decide +kernel, by decide +kernel, by decide +kernel, ⟨e4, List.mem_of_find?_eq_some m4, p4, n4⟩,
    ⟨e5, List.mem_of_find?_eq_some m5, p5, n5, n5'⟩⟩

end Twink.Enum

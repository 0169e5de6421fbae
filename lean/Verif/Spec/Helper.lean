import Verif.Model.Helper
import Verif.Spec.Hello

/-! Names of the socket files of a channel. -/

namespace Twink.Helper
open Spec

/-- The file of kind `k` of the channel with number `id`: named after the datapath, or `unknown` (0). -/
def fileName (datapath id : Nat) (k : Kind) : Text :=
  (if datapath = 0 then "unknown".toList else Nat.toDigits 16 datapath) ++ '-' :: (Nat.toDigits 16 id ++ '.' :: k.text)

/-- One of the files of the channel. -/
def Own (id : Nat) (p : Text) : Prop := ∃ d k, p = fileName d id k

/-- The datapaths that the switch announces in its features replies. -/
def datapaths (ms : List Bytes) : List Nat := (ms.filter fun m => u8 m 1 = 6).map fun m => u64 m 8

/-- The datapaths set by a sequence of steps. -/
def announcedBy : List Act → List Nat
  | [] => []
  | .features d :: as => d :: announcedBy as
  | _ :: as => announcedBy as

/-- Every socket bound has its `stop` assigned afterwards. -/
def Assigned (as : List Act) : Prop := ∀ k pre post, as = pre ++ .bind k :: post → Act.assign k ∈ post

/-- The switch announces one datapath, or none (0) and then one. -/
def Steady (ms : List Bytes) : Prop := ∃ i j d, datapaths ms = List.replicate i 0 ++ List.replicate j d

end Twink.Helper

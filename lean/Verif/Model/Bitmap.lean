import Verif.Model.Of13Parse

/-!
# Version bitmaps

Models `from_bitmap` of `/repo/twink/ofp4/parse.py` (36-42) and `/repo/twink/ofp5/parse.py` (35-41), which are the same text.
-/

namespace Twink.Bitmap
open Twink

/-- `from_bitmap(uint32_t_list)`: the two nested loops. ofp4/parse.py L36-42, ofp5/parse.py L35-41 -/
def fromBitmap (us : List Nat) : List Nat :=
  ((List.range us.length).zip us).flatMap fun p =>
    ((List.range 32).filter fun s => p.2 &&& (1 <<< s) ≠ 0).map fun s => 32 * p.1 + s

end Twink.Bitmap

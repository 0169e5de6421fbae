import Verif.Spec.Hello

/-! What port status messages of OpenFlow 1.3 say, read off their bytes. -/

namespace Twink.Agent
open Spec

/-- The numbers of the ports whose addition the messages announce (OFPT_PORT_STATUS = 12, OFPPR_ADD = 0). -/
def saidNew (ms : List Bytes) : List Nat := (ms.filter fun m => u8 m 1 == 12 && u8 m 8 == 0).map (u32 · 16)

/-- The numbers of the ports whose deletion the messages announce (OFPPR_DELETE = 1). -/
def saidGone (ms : List Bytes) : List Nat := (ms.filter fun m => u8 m 1 == 12 && u8 m 8 == 1).map (u32 · 16)

end Twink.Agent

import Verif.Model.Ocppj
/-!
# The services

`service.CentralSystem` and `service.ChargePoint` (internal/service): the last step of their `Send`, the
type assertion on the response (cp.go:22-32, 42-52; cs.go:22-32, 42-52).
-/
namespace Verif
open Ocppj

/-- `rawResp.(cpresp.ChargePointResponse)` in the services that send to the central system (`toCs`), and
`rawResp.(csresp.CentralSystemResponse)` in those that send to a charge point: `none` is the error
`not a ... response`. -/
def assertResponse (toCs : Bool) (r : Resp) : Option Resp :=
  if r.type.isChargePoint = toCs then some r else none

end Verif

import Verif.Props.ShippedStates
/-! # C50: comparison of modules (1 of 4) -/
namespace Radius.Gen
open Shipped

set_option maxRecDepth 100000

theorem good_rfc2865 : Good state_rfc2865 rfc2865 := good_of_check parse_rfc2865 (by decide +kernel)
theorem good_rfc3580 : Good state_rfc3580 rfc3580 := good_of_check parse_rfc3580 (by decide +kernel)
theorem good_rfc4372 : Good state_rfc4372 rfc4372 := good_of_check parse_rfc4372 (by decide +kernel)

end Radius.Gen

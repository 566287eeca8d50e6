import Verif.Props.ShippedStates
/-! # C50: comparison of modules (3 of 4) -/
namespace Radius.Gen
open Shipped

set_option maxRecDepth 100000

theorem good_rfc2867 : Good state_rfc2867 rfc2867 := good_of_check parse_rfc2867 (by decide +kernel)
theorem good_rfc2868 : Good state_rfc2868 rfc2868 := good_of_check parse_rfc2868 (by decide +kernel)
theorem good_rfc4603 : Good state_rfc4603 rfc4603 := good_of_check parse_rfc4603 (by decide +kernel)
theorem good_rfc5090 : Good state_rfc5090 rfc5090 := good_of_check parse_rfc5090 (by decide +kernel)
theorem good_rfc5607 : Good state_rfc5607 rfc5607 := good_of_check parse_rfc5607 (by decide +kernel)
theorem good_rfc6519 : Good state_rfc6519 rfc6519 := good_of_check parse_rfc6519 (by decide +kernel)
theorem good_rfc7155 : Good state_rfc7155 rfc7155 := good_of_check parse_rfc7155 (by decide +kernel)

end Radius.Gen

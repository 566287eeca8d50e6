import Verif.Props.ShippedStates
/-! # C50: comparison of modules (4 of 4) -/
namespace Radius.Gen
open Shipped

set_option maxRecDepth 100000

theorem good_rfc2866 : Good state_rfc2866 rfc2866 := good_of_check parse_rfc2866 (by decide +kernel)
theorem good_rfc2869 : Good state_rfc2869 rfc2869 := good_of_check parse_rfc2869 (by decide +kernel)
theorem good_rfc4675 : Good state_rfc4675 rfc4675 := good_of_check parse_rfc4675 (by decide +kernel)
theorem good_rfc4818 : Good state_rfc4818 rfc4818 := good_of_check parse_rfc4818 (by decide +kernel)
theorem good_rfc4849 : Good state_rfc4849 rfc4849 := good_of_check parse_rfc4849 (by decide +kernel)
theorem good_rfc5176 : Good state_rfc5176 rfc5176 := good_of_check parse_rfc5176 (by decide +kernel)
theorem good_rfc7055 : Good state_rfc7055 rfc7055 := good_of_check parse_rfc7055 (by decide +kernel)

end Radius.Gen

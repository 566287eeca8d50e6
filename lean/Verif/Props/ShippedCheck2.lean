import Verif.Props.ShippedStates
/-! # C50: comparison of modules (2 of 4) -/
namespace Radius.Gen
open Shipped

set_option maxRecDepth 100000

theorem good_rfc3162 : Good state_rfc3162 rfc3162 := good_of_check parse_rfc3162 (by decide +kernel)
theorem good_rfc3576 : Good state_rfc3576 rfc3576 := good_of_check parse_rfc3576 (by decide +kernel)
theorem good_rfc4072 : Good state_rfc4072 rfc4072 := good_of_check parse_rfc4072 (by decide +kernel)
theorem good_rfc5904 : Good state_rfc5904 rfc5904 := good_of_check parse_rfc5904 (by decide +kernel)
theorem good_rfc6572 : Good state_rfc6572 rfc6572 := good_of_check parse_rfc6572 (by decide +kernel)
theorem good_rfc6677 : Good state_rfc6677 rfc6677 := good_of_check parse_rfc6677 (by decide +kernel)
theorem good_rfc6911 : Good state_rfc6911 rfc6911 := good_of_check parse_rfc6911 (by decide +kernel)

end Radius.Gen

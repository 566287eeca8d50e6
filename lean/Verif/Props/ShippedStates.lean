import Verif.Props.ShippedLemmas
/-! # The states of the generator between the shipped dictionaries -/
namespace Radius.Gen
open Shipped

noncomputable def state_rfc2865 : MainState := {}
noncomputable def state_rfc2866 : MainState := advance state_rfc2865 rfc2865
noncomputable def state_rfc2867 : MainState := advance state_rfc2866 rfc2866
noncomputable def state_rfc2868 : MainState := advance state_rfc2867 rfc2867
noncomputable def state_rfc2869 : MainState := advance state_rfc2868 rfc2868
noncomputable def state_rfc3162 : MainState := advance state_rfc2869 rfc2869
noncomputable def state_rfc3576 : MainState := advance state_rfc3162 rfc3162
noncomputable def state_rfc3580 : MainState := advance state_rfc3576 rfc3576
noncomputable def state_rfc4072 : MainState := advance state_rfc3580 rfc3580
noncomputable def state_rfc4372 : MainState := advance state_rfc4072 rfc4072
noncomputable def state_rfc4603 : MainState := advance state_rfc4372 rfc4372
noncomputable def state_rfc4675 : MainState := advance state_rfc4603 rfc4603
noncomputable def state_rfc4818 : MainState := advance state_rfc4675 rfc4675
noncomputable def state_rfc4849 : MainState := advance state_rfc4818 rfc4818
noncomputable def state_rfc5090 : MainState := advance state_rfc4849 rfc4849
noncomputable def state_rfc5176 : MainState := advance state_rfc5090 rfc5090
noncomputable def state_rfc5607 : MainState := advance state_rfc5176 rfc5176
noncomputable def state_rfc5904 : MainState := advance state_rfc5607 rfc5607
noncomputable def state_rfc6519 : MainState := advance state_rfc5904 rfc5904
noncomputable def state_rfc6572 : MainState := advance state_rfc6519 rfc6519
noncomputable def state_rfc6677 : MainState := advance state_rfc6572 rfc6572
noncomputable def state_rfc6911 : MainState := advance state_rfc6677 rfc6677
noncomputable def state_rfc7055 : MainState := advance state_rfc6911 rfc6911
noncomputable def state_rfc7155 : MainState := advance state_rfc7055 rfc7055

end Radius.Gen

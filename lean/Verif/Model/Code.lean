import Verif.Basic
/-! # `radius/src/core/code.rs` -/
namespace Radius

/-- `enum Code` — radius/src/core/code.rs:5-24. -/
inductive Code where
  | AccessRequest | AccessAccept | AccessReject | AccountingRequest | AccountingResponse
  | AccessChallenge | StatusServer | StatusClient | DisconnectRequest | DisconnectACK
  | DisconnectNAK | CoARequest | CoAACK | CoANAK | Reserved | Invalid
deriving Repr, DecidableEq

namespace Code

/-- `self.code as u8`, the `repr(u8)` discriminants — radius/src/core/code.rs:8-23. -/
def toU8 : Code → UInt8
  | AccessRequest => 1
  | AccessAccept => 2
  | AccessReject => 3
  | AccountingRequest => 4
  | AccountingResponse => 5
  | AccessChallenge => 11
  | StatusServer => 12
  | StatusClient => 13
  | DisconnectRequest => 40
  | DisconnectACK => 41
  | DisconnectNAK => 42
  | CoARequest => 43
  | CoAACK => 44
  | CoANAK => 45
  | Reserved => 255
  | Invalid => 0

/-- `Code::try_from(u8)` derived by `num_enum::TryFromPrimitive` — radius/src/core/code.rs:5
(the derive macro matches the value against the discriminants of lines 8-23). -/
def tryFrom (b : UInt8) : Option Code :=
  if b = 1 then some AccessRequest
  else if b = 2 then some AccessAccept
  else if b = 3 then some AccessReject
  else if b = 4 then some AccountingRequest
  else if b = 5 then some AccountingResponse
  else if b = 11 then some AccessChallenge
  else if b = 12 then some StatusServer
  else if b = 13 then some StatusClient
  else if b = 40 then some DisconnectRequest
  else if b = 41 then some DisconnectACK
  else if b = 42 then some DisconnectNAK
  else if b = 43 then some CoARequest
  else if b = 44 then some CoAACK
  else if b = 45 then some CoANAK
  else if b = 255 then some Reserved
  else if b = 0 then some Invalid
  else none

/-- `Code::from` — radius/src/core/code.rs:48-53. -/
def «from» (value : UInt8) : Code :=
  match tryFrom value with
  | some code => code
  | none => Invalid

/-- `Code::string` — radius/src/core/code.rs:27-46. -/
def string : Code → String
  | AccessRequest => "Access-Request"
  | AccessAccept => "Access-Accept"
  | AccessReject => "Access-Reject"
  | AccountingRequest => "Accounting-Request"
  | AccountingResponse => "Accounting-Response"
  | AccessChallenge => "Access-Challenge"
  | StatusServer => "Status-Server"
  | StatusClient => "Status-Client"
  | DisconnectRequest => "Disconnect-Request"
  | DisconnectACK => "Disconnect-ACK"
  | DisconnectNAK => "Disconnect-NAK"
  | CoARequest => "CoA-Request"
  | CoAACK => "CoA-ACK"
  | CoANAK => "CoA-NAK"
  | Reserved => "Reserved"
  | Invalid => "Invalid"

/-- `#[derive(Debug)]` on `Code`: the variant name — radius/src/core/code.rs:5. -/
def debug : Code → String
  | AccessRequest => "AccessRequest"
  | AccessAccept => "AccessAccept"
  | AccessReject => "AccessReject"
  | AccountingRequest => "AccountingRequest"
  | AccountingResponse => "AccountingResponse"
  | AccessChallenge => "AccessChallenge"
  | StatusServer => "StatusServer"
  | StatusClient => "StatusClient"
  | DisconnectRequest => "DisconnectRequest"
  | DisconnectACK => "DisconnectACK"
  | DisconnectNAK => "DisconnectNAK"
  | CoARequest => "CoARequest"
  | CoAACK => "CoAACK"
  | CoANAK => "CoANAK"
  | Reserved => "Reserved"
  | Invalid => "Invalid"

end Code
end Radius

import Verif.Model.Client
/-! # Texts of errors -/
namespace Radius

/-- `Display` of `ClientError` (thiserror) — radius/src/client.rs:12-47. -/
def ClientError.display : ClientError → String
  | .FailedUdpSocketBindingError e => "failed to bind a UDP socket; " ++ e
  | .FailedEstablishingUdpConnectionError addr e => "failed to establish a UDP connection to " ++ addr ++ "; " ++ e
  | .FailedRadiusPacketEncodingError e => "failed to encode a RADIUS request; " ++ e
  | .FailedSendingRadiusPacketError addr e => "failed to send a UDP datagram to " ++ addr ++ "; " ++ e
  | .FailedReceivingResponseError addr e => "failed to receive the UDP response from " ++ addr ++ "; " ++ e
  | .FailedDecodingRadiusResponseError e => "failed to decode a RADIUS response packet; " ++ e
  | .ConnectionTimeoutError => "connection timeout"
  | .SocketTimeoutError => "socket timeout"

/-- `Display` of `AVPError` (thiserror) — radius/src/core/avp.rs:16-57. -/
def AVPError.display : AVPError → String
  | .UserPasswordPlainTextMaximumLengthExceededError n =>
    "the maximum length of the plain text for user-password is 128, but the given value has " ++ toString n ++ " bytes"
  | .PasswordSecretMissingError => "secret for password mustn't be empty, but the given value is empty"
  | .InvalidRequestAuthenticatorLength =>
    "request authenticator for password has to have 16-bytes payload, but the given value doesn't"
  | .InvalidAttributeLengthError expected actual =>
    "invalid attribute length: expected=" ++ expected ++ ", actual=" ++ toString actual ++ " bytes"
  | .TagMissingError => "tag value is missing"
  | .DecodingError msg => "decoding error: " ++ msg
  | .InvalidSaltMSBError b => "invalid salt. the MSB has to be 1, but given value isn't: " ++ toString b.toNat
  | .InvalidTagForStringValueError => "invalid tag for string value. this must not be zero"
  | .InvalidTagForIntegerValueError => "invalid tag for integer value. this must be less than or equal 0x1f"
  | .HashComputationFailed msg => "computation of hash failed: " ++ msg

end Radius

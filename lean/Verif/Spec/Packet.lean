import Verif.Model.Packet
import Verif.Spec.Wire
/-! # Specification: decode errors and authenticator formulas -/
namespace Radius.Spec

/-- The length field of a datagram. -/
def headerLength (bs : Bytes) : Nat := (bs.getD 2 0).toNat * 256 + (bs.getD 3 0).toNat

/-- `DecodeError bs e`: `e` names the first constraint that `bs` violates. -/
inductive DecodeError (bs : Bytes) : PacketError → Prop
  | shortBuffer : bs.length < 20 → DecodeError bs (.InsufficientPacketPayloadLengthError 20 bs.length)
  | shortHeader : 20 ≤ bs.length → headerLength bs < 20 →
      DecodeError bs (.InsufficientHeaderDefinedPacketLengthError (headerLength bs) 20)
  | tooLong : 20 ≤ bs.length → 4096 < headerLength bs →
      DecodeError bs (.HeaderDefinedPacketLengthExceedsMaximumLimitError (headerLength bs) 4096)
  | truncated : 20 ≤ bs.length → 20 ≤ headerLength bs → headerLength bs ≤ 4096 →
      bs.length < headerLength bs →
      DecodeError bs (.InsufficientPacketPayloadLengthError (headerLength bs) bs.length)
  | attributes (msg : String) : 20 ≤ bs.length → 20 ≤ headerLength bs → headerLength bs ≤ 4096 →
      headerLength bs ≤ bs.length →
      AttrsBad msg ((bs.take (headerLength bs)).drop 20) →
      DecodeError bs (.DecodingError msg)

/-- How the authenticator field of a packet is determined. -/
inductive AuthRule where
  /-- the sender's own random authenticator (RFC 2865 section 3, RFC 5997) -/
  | own
  /-- digest with a zero authenticator (RFC 2866 section 3, RFC 5176 section 2.3) -/
  | zeroed
  /-- digest with the authenticator of the request (RFC 2865 section 3) -/
  | chained
deriving DecidableEq

/-- The rule for a code byte; `none` for codes that are not sent. -/
def authRule (code : UInt8) : Option AuthRule :=
  match code.toNat with
  | 1 | 12 => some .own
  | 4 | 40 | 43 => some .zeroed
  | 2 | 3 | 5 | 11 | 41 | 42 | 44 | 45 => some .chained
  | _ => none

/-- The datagram with its authenticator field (bytes 4 to 19) replaced. -/
def withAuthenticator (bs auth : Bytes) : Bytes := bs.take 4 ++ auth ++ bs.drop 20

/-- The authenticator field of a datagram. -/
def authenticatorOf (bs : Bytes) : Bytes := (bs.drop 4).take 16

end Radius.Spec

import Verif.Model.Attributes
import Verif.Model.Code
/-! # `radius/src/core/packet.rs` (feature `md5`)

`H` is the digest, `ck` whether the build has overflow checks. -/
namespace Radius

/-- `MAX_PACKET_LENGTH` — radius/src/core/packet.rs:17. -/
def MAX_PACKET_LENGTH : Nat := 4096

/-- `RADIUS_PACKET_HEADER_LENGTH` — radius/src/core/packet.rs:18. -/
def RADIUS_PACKET_HEADER_LENGTH : Nat := 20

/-- `enum PacketError` — radius/src/core/packet.rs:21-49. -/
inductive PacketError where
  | InsufficientPacketPayloadLengthError (a b : Nat)
  | InsufficientHeaderDefinedPacketLengthError (a b : Nat)
  | HeaderDefinedPacketLengthExceedsMaximumLimitError (a b : Nat)
  | DecodingError (msg : String)
  | EncodingError (msg : String)
  | UnknownCodeError (msg : String)
  | HashComputationFailed (msg : String)
deriving Repr, DecidableEq

/-- `struct Packet` — radius/src/core/packet.rs:53-59. -/
structure Packet where
  code : Code
  identifier : UInt8
  authenticator : Bytes
  secret : Bytes
  attributes : Attributes
deriving Repr, DecidableEq

namespace Packet

/-- `Packet::_new` — radius/src/core/packet.rs:77-90. `rng k` is the k-th byte drawn from
`rand::thread_rng()`. -/
def newInner (rng : Nat → UInt8) (code : Code) (secret : Bytes) (maybeIdentifier : Option UInt8) : Packet :=
  { code
    identifier := match maybeIdentifier with
      | some ident => ident
      | none => rng 16
    authenticator := (List.range 16).map rng
    secret
    attributes := [] }

/-- `Packet::new` — radius/src/core/packet.rs:66-68. -/
def new (rng : Nat → UInt8) (code : Code) (secret : Bytes) : Packet := newInner rng code secret none

/-- `Packet::new_with_identifier` — radius/src/core/packet.rs:73-75. -/
def newWithIdentifier (rng : Nat → UInt8) (code : Code) (secret : Bytes) (identifier : UInt8) :
    Packet := newInner rng code secret (some identifier)

/-- `Packet::get_code` — radius/src/core/packet.rs:92-94. -/
def getCode (self : Packet) : Code := self.code
/-- `Packet::get_identifier` — radius/src/core/packet.rs:96-98. -/
def getIdentifier (self : Packet) : UInt8 := self.identifier
/-- `Packet::get_secret` — radius/src/core/packet.rs:100-102. -/
def getSecret (self : Packet) : Bytes := self.secret
/-- `Packet::get_authenticator` — radius/src/core/packet.rs:104-106. -/
def getAuthenticator (self : Packet) : Bytes := self.authenticator

/-- `Packet::set_identifier` — radius/src/core/packet.rs:109-111. -/
def setIdentifier (self : Packet) (identifier : UInt8) : Packet := { self with identifier }

/-- `Packet::decode` — radius/src/core/packet.rs:114-159. -/
def decode (bs secret : Bytes) : Out PacketError Packet :=
  if bs.length < RADIUS_PACKET_HEADER_LENGTH then
    .err (.InsufficientPacketPayloadLengthError RADIUS_PACKET_HEADER_LENGTH bs.length)
  else do
    let len ← match (← slice bs 2 4) with
      | [a, b] => (.ok (u16FromBe a b).toNat : Out PacketError Nat)
      | _ => .err (.DecodingError "could not convert slice to array")
    if len < RADIUS_PACKET_HEADER_LENGTH then
      .err (.InsufficientHeaderDefinedPacketLengthError len RADIUS_PACKET_HEADER_LENGTH)
    else if len > MAX_PACKET_LENGTH then
      .err (.HeaderDefinedPacketLengthExceedsMaximumLimitError len MAX_PACKET_LENGTH)
    else if bs.length < len then
      .err (.InsufficientPacketPayloadLengthError len bs.length)
    else
      let attributes ← (Attributes.decode (← slice bs RADIUS_PACKET_HEADER_LENGTH len)).mapErr
        PacketError.DecodingError
      .ok {
        code := Code.from (← idx bs 0)
        identifier := ← idx bs 1
        authenticator := ← slice bs 4 RADIUS_PACKET_HEADER_LENGTH
        secret
        attributes }

/-- `Packet::make_response_packet` — radius/src/core/packet.rs:162-170. -/
def makeResponsePacket (self : Packet) (code : Code) : Packet :=
  { code, identifier := self.identifier, authenticator := self.authenticator
    secret := self.secret, attributes := [] }

/-- `Packet::marshal_binary` — radius/src/core/packet.rs:285-306. -/
def marshalBinary (ck : Bool) (self : Packet) : Out String Bytes := do
  let encodedAvp ← Attributes.encode ck self.attributes
  let size ← addU16 ck (UInt16.ofNat RADIUS_PACKET_HEADER_LENGTH) (UInt16.ofNat encodedAvp.length)
  if size.toNat > MAX_PACKET_LENGTH then .err "packet is too large"
  else
    let bs : Bytes := []
    let bs := bs ++ [self.code.toU8]
    let bs := bs ++ [self.identifier]
    let bs := bs ++ u16ToBe size
    let bs := bs ++ self.authenticator
    let bs := bs ++ (← Attributes.encode ck self.attributes)
    .ok bs

/-- Sixteen zero bytes — radius/src/core/packet.rs:199-202 and 368-371. -/
def zeros16 : Bytes :=
  [0x00, 0x00, 0x00, 0x00, 0x00, 0x00, 0x00, 0x00, 0x00, 0x00, 0x00, 0x00, 0x00, 0x00, 0x00, 0x00]

/-- The inner `match self.code` choosing what stands for the authenticator in the hashed buffer —
radius/src/core/packet.rs:194-207. -/
def hashedAuthenticator (self : Packet) : Bytes :=
  match self.code with
  | .AccountingRequest | .DisconnectRequest | .CoARequest => zeros16
  | _ => self.authenticator

/-- `Packet::encode` — radius/src/core/packet.rs:174-216. -/
def encode (H : Hash) (ck : Bool) (self : Packet) : Out PacketError Bytes := do
  let bs ← (marshalBinary ck self).mapErr PacketError.EncodingError
  match self.code with
  | .AccessRequest | .StatusServer => .ok bs
  | .AccessAccept | .AccessReject | .AccountingRequest | .AccountingResponse | .AccessChallenge
  | .DisconnectRequest | .DisconnectACK | .DisconnectNAK | .CoARequest | .CoAACK | .CoANAK =>
    let buf ← slice bs 0 4
    let buf := buf ++ hashedAuthenticator self
    let buf := buf ++ (← sliceFrom bs RADIUS_PACKET_HEADER_LENGTH)
    let buf := buf ++ self.secret
    splice bs 4 20 (H buf).val
  | _ => .err (.UnknownCodeError self.code.debug)

/-- `Packet::is_authentic_response` — radius/src/core/packet.rs:310-329. Returns no `Err`, hence the empty
error type. -/
def isAuthenticResponse (H : Hash) (response request secret : Bytes) : Out Empty Bool :=
  if response.length < RADIUS_PACKET_HEADER_LENGTH ∨ request.length < RADIUS_PACKET_HEADER_LENGTH
      ∨ secret.isEmpty then .ok false
  else do
    let p1 ← slice response 0 4
    let p2 ← slice request 4 RADIUS_PACKET_HEADER_LENGTH
    let p3 ← sliceFrom response RADIUS_PACKET_HEADER_LENGTH
    let d := (H (p1 ++ p2 ++ p3 ++ secret)).val
    let a ← slice response 4 RADIUS_PACKET_HEADER_LENGTH
    .ok (d == a)

/-- `Packet::is_authentic_request` — radius/src/core/packet.rs:358-381. -/
def isAuthenticRequest (H : Hash) (request secret : Bytes) : Out Empty Bool :=
  if request.length < RADIUS_PACKET_HEADER_LENGTH ∨ secret.isEmpty then .ok false
  else do
    match Code.from (← idx request 0) with
    | .AccessRequest | .StatusServer => .ok true
    | .AccountingRequest | .DisconnectRequest | .CoARequest =>
      let p1 ← slice request 0 4
      let p3 ← sliceFrom request RADIUS_PACKET_HEADER_LENGTH
      let d := (H (p1 ++ zeros16 ++ p3 ++ secret)).val
      let a ← slice request 4 RADIUS_PACKET_HEADER_LENGTH
      .ok (d == a)
    | _ => .ok false

/-- `Packet::add` — radius/src/core/packet.rs:417-419. -/
def add (self : Packet) (avp : AVP) : Packet :=
  { self with attributes := Attributes.add self.attributes avp }

/-- `Packet::extend` — radius/src/core/packet.rs:422-424. -/
def extend (self : Packet) (avps : List AVP) : Packet :=
  { self with attributes := Attributes.extend self.attributes avps }

/-- `Packet::delete` — radius/src/core/packet.rs:427-429. -/
def delete (self : Packet) (typ : AVPType) : Packet :=
  { self with attributes := Attributes.del self.attributes typ }

/-- `Packet::lookup` — radius/src/core/packet.rs:432-434. -/
def lookup (self : Packet) (typ : AVPType) : Option AVP := Attributes.lookup self.attributes typ

/-- `Packet::lookup_all` — radius/src/core/packet.rs:437-439. -/
def lookupAll (self : Packet) (typ : AVPType) : List AVP := Attributes.lookupAll self.attributes typ

end Packet
end Radius

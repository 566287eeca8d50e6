import Verif.Model.Packet
/-! # The functions compiled with feature `openssl`

`openssl::hash::hash(MessageDigest::md5(), ..)` returns a `Result`: `F` is the fallible digest, its error the text of the
`ErrorStack`. All other functions of the crate are the same in both builds. -/
namespace Radius

/-- `openssl::hash::hash(MessageDigest::md5(), data)`. -/
abbrev FHash := Bytes → Except String Digest

namespace OpenSsl

/-- The `let hash_val = ..; let enc_block = if let Err(_err) = hash_val { return Err(..) } else { .. }` idiom of avp.rs,
e.g. radius/src/core/avp.rs:289-294. -/
def digestA (F : FHash) (data : Bytes) : Out AVPError Bytes :=
  match F data with
  | .error m => .err (.HashComputationFailed m)
  | .ok d => .ok d.val

/-- The same idiom in packet.rs — radius/src/core/packet.rs:256-261. -/
def digestP (F : FHash) (data : Bytes) : Out PacketError Bytes :=
  match F data with
  | .error m => .err (.HashComputationFailed m)
  | .ok d => .ok d.val

/-- `hash_val.expect(..)` — radius/src/core/packet.rs:341-351 and 393-407. -/
def digestExpect (F : FHash) (data : Bytes) : Out Empty Bytes :=
  match F data with
  | .error _ => .panic
  | .ok d => .ok d.val

/-- The loop of the hiding functions — radius/src/core/avp.rs:305-326 and 511-532. -/
def hideLoop (F : FHash) (secret : Bytes) : List Bytes → (buff enc : Bytes) → Out AVPError Bytes
  | [], _, enc => .ok enc
  | chunk :: rest, buff, enc => do
    let encBlock ← digestA F (secret ++ buff)
    let buff' := xorBytes encBlock (AVP.padChunk chunk)
    hideLoop F secret rest buff' (enc ++ buff')

/-- The loop of the revealing functions — radius/src/core/avp.rs:782-801 and 915-934. -/
def revealLoop (F : FHash) (secret : Bytes) : List Bytes → (buff dec : Bytes) → Out AVPError Bytes
  | [], _, dec => .ok dec
  | chunk :: rest, buff, dec => do
    let decBlock ← digestA F (secret ++ buff)
    revealLoop F secret rest chunk (dec ++ xorBytes decBlock chunk)

/-- `AVP::from_user_password` — radius/src/core/avp.rs:251-329. -/
def fromUserPassword (F : FHash) (typ : AVPType) (plainText secret requestAuthenticator : Bytes) :
    Out AVPError AVP :=
  if plainText.length > 128 then
    .err (.UserPasswordPlainTextMaximumLengthExceededError plainText.length)
  else if secret.isEmpty then .err .PasswordSecretMissingError
  else if requestAuthenticator.length ≠ 16 then .err .InvalidRequestAuthenticatorLength
  else
    let buff := requestAuthenticator
    if plainText.isEmpty then do
      let encBlock ← digestA F (secret ++ buff)
      .ok { typ, value := xorBytes encBlock (List.replicate 16 0) }
    else do
      let enc ← hideLoop F secret (chunks 15 plainText) buff []
      .ok { typ, value := enc }

/-- `AVP::from_tunnel_password` — radius/src/core/avp.rs:434-534. The digest of the first block is computed before the check
for an empty password, and again in the loop. -/
def fromTunnelPassword (F : FHash) (r0 r1 : UInt8) (typ : AVPType) (tag : Option Tag)
    (plainText secret requestAuthenticator : Bytes) : Out AVPError AVP :=
  if requestAuthenticator.length > 240 then
    .err (.InvalidAttributeLengthError "240 bytes" requestAuthenticator.length)
  else
    let salt : Bytes := [r0 ||| 0x80, r1]
    if secret.isEmpty then .err .PasswordSecretMissingError
    else if requestAuthenticator.length ≠ 16 then .err .InvalidRequestAuthenticatorLength
    else do
      let enc : Bytes := [tag.elim UNUSED_TAG_VALUE (fun v => v.value)] ++ salt
      let buff := requestAuthenticator ++ salt
      let encBlock ← digestA F (secret ++ buff)
      if plainText.isEmpty then
        .ok { typ, value := enc ++ xorBytes encBlock (List.replicate 16 0) }
      else do
        let enc ← hideLoop F secret (chunks 15 plainText) buff enc
        .ok { typ, value := enc }

/-- `AVP::encode_user_password` — radius/src/core/avp.rs:756-806. -/
def encodeUserPassword (F : FHash) (self : AVP) (secret requestAuthenticator : Bytes) :
    Out AVPError Bytes :=
  if self.value.length < 16 ∨ self.value.length > 128 then
    .err (.InvalidAttributeLengthError "16 >= bytes && 128 <= bytes" self.value.length)
  else if secret.isEmpty then .err .PasswordSecretMissingError
  else if requestAuthenticator.length ≠ 16 then .err .InvalidRequestAuthenticatorLength
  else do
    let dec ← revealLoop F secret (chunks 15 self.value) requestAuthenticator []
    .ok (AVP.upToZero dec)

/-- `AVP::encode_tunnel_password` — radius/src/core/avp.rs:883-940. -/
def encodeTunnelPassword (F : FHash) (self : AVP) (secret requestAuthenticator : Bytes) :
    Out AVPError (Bytes × Tag) :=
  if self.value.length < 19 ∨ self.value.length > 243 ∨ (self.value.length - 3) % 16 ≠ 0 then
    .err (.InvalidAttributeLengthError "19 <= bytes && bytes <= 242 && (bytes - 3) % 16 == 0"
      self.value.length)
  else do
    let v1 ← idx self.value 1
    if v1 &&& 0x80 ≠ 0x80 then .err (.InvalidSaltMSBError v1)
    else if secret.isEmpty then .err .PasswordSecretMissingError
    else if requestAuthenticator.length ≠ 16 then .err .InvalidRequestAuthenticatorLength
    else do
      let tag : Tag := { value := ← idx self.value 0 }
      let buff := requestAuthenticator ++ (← slice self.value 1 3)
      let body ← sliceFrom self.value 3
      let dec ← revealLoop F secret (chunks 15 body) buff []
      .ok (AVP.upToZero dec, tag)

/-- `Packet::encode` — radius/src/core/packet.rs:220-266. -/
def encode (F : FHash) (ck : Bool) (self : Packet) : Out PacketError Bytes := do
  let bs ← (Packet.marshalBinary ck self).mapErr PacketError.EncodingError
  match self.code with
  | .AccessRequest | .StatusServer => .ok bs
  | .AccessAccept | .AccessReject | .AccountingRequest | .AccountingResponse | .AccessChallenge
  | .DisconnectRequest | .DisconnectACK | .DisconnectNAK | .CoARequest | .CoAACK | .CoANAK =>
    let buf ← slice bs 0 4
    let buf := buf ++ Packet.hashedAuthenticator self
    let buf := buf ++ (← sliceFrom bs RADIUS_PACKET_HEADER_LENGTH)
    let buf := buf ++ self.secret
    let enc ← digestP F buf
    splice bs 4 20 enc
  | _ => .err (.UnknownCodeError self.code.debug)

/-- `Packet::is_authentic_response` — radius/src/core/packet.rs:333-354. -/
def isAuthenticResponse (F : FHash) (response request secret : Bytes) : Out Empty Bool :=
  if response.length < RADIUS_PACKET_HEADER_LENGTH ∨ request.length < RADIUS_PACKET_HEADER_LENGTH
      ∨ secret.isEmpty then .ok false
  else do
    let p1 ← slice response 0 4
    let p2 ← slice request 4 RADIUS_PACKET_HEADER_LENGTH
    let p3 ← sliceFrom response RADIUS_PACKET_HEADER_LENGTH
    let enc ← digestExpect F (p1 ++ p2 ++ p3 ++ secret)
    let a ← slice response 4 RADIUS_PACKET_HEADER_LENGTH
    .ok (enc == a)

/-- `Packet::is_authentic_request` — radius/src/core/packet.rs:385-414. -/
def isAuthenticRequest (F : FHash) (request secret : Bytes) : Out Empty Bool :=
  if request.length < RADIUS_PACKET_HEADER_LENGTH ∨ secret.isEmpty then .ok false
  else do
    match Code.from (← idx request 0) with
    | .AccessRequest | .StatusServer => .ok true
    | .AccountingRequest | .DisconnectRequest | .CoARequest =>
      let p1 ← slice request 0 4
      let p3 ← sliceFrom request RADIUS_PACKET_HEADER_LENGTH
      let enc ← digestExpect F (p1 ++ Packet.zeros16 ++ p3 ++ secret)
      let a ← slice request 4 RADIUS_PACKET_HEADER_LENGTH
      .ok (enc == a)
    | _ => .ok false

end OpenSsl
end Radius

import Verif.Basic
import Verif.Model.Tag
/-! # `radius/src/core/avp.rs` (feature `md5`)

The functions hashing data take the digest `H` as first argument. The variants compiled with feature
`openssl` are in `Verif/Model/OpenSsl.lean`. -/
namespace Radius

/-- `enum AVPError` — radius/src/core/avp.rs:16-57 (message texts of `thiserror` not modelled). -/
inductive AVPError where
  | UserPasswordPlainTextMaximumLengthExceededError (n : Nat)
  | PasswordSecretMissingError
  | InvalidRequestAuthenticatorLength
  | InvalidAttributeLengthError (expected : String) (actual : Nat)
  | TagMissingError
  | DecodingError (msg : String)
  | InvalidSaltMSBError (b : UInt8)
  | InvalidTagForStringValueError
  | InvalidTagForIntegerValueError
  | HashComputationFailed (msg : String)
deriving Repr, DecidableEq

/-- `type AVPType = u8` — radius/src/core/avp.rs:59. -/
abbrev AVPType := UInt8

/-- `TYPE_INVALID` — radius/src/core/avp.rs:61. -/
def TYPE_INVALID : AVPType := 255

/-- `struct AVP` — radius/src/core/avp.rs:64-68. -/
structure AVP where
  typ : AVPType
  value : Bytes
deriving Repr, DecidableEq

/-- `Ipv4Addr`: its four octets (std). -/
structure Ipv4Addr where
  a : UInt8
  b : UInt8
  c : UInt8
  d : UInt8
deriving Repr, DecidableEq

/-- `Ipv4Addr::octets` (std). -/
def Ipv4Addr.octets (x : Ipv4Addr) : Bytes := [x.a, x.b, x.c, x.d]

/-- `Ipv6Addr`: its sixteen octets (std). -/
structure Ipv6Addr where
  octets : Bytes
  len : octets.length = 16
deriving DecidableEq

/-- `chrono::DateTime<Utc>`: seconds since the epoch and nanoseconds. -/
structure DateTime where
  secs : Int
  nanos : Nat
deriving Repr, DecidableEq

/-- `Utc.timestamp_opt(s, 0)`: `Single` on chrono's supported range (years -262143 to 262142). -/
def timestampOpt (s : Int) : Option DateTime :=
  if -8334601228800 ≤ s ∧ s ≤ 8210266876799 then some { secs := s, nanos := 0 } else none

/-- `&str::as_bytes().to_vec()` (std). -/
def strBytes (s : String) : Bytes := s.toUTF8.data.toList

/-- `String::from_utf8` (std), with the error text reduced to a constant. -/
def stringFromUtf8 (bs : Bytes) : Out AVPError String :=
  match String.fromUTF8? bs.toByteArray with
  | some s => .ok s
  | none => .err (.DecodingError "invalid utf-8")

namespace AVP

/-- `AVP::from_u32` — radius/src/core/avp.rs:72-77. -/
def fromU32 (typ : AVPType) (value : UInt32) : AVP := { typ, value := u32ToBe value }

/-- `AVP::from_u16` — radius/src/core/avp.rs:80-85. -/
def fromU16 (typ : AVPType) (value : UInt16) : AVP := { typ, value := u16ToBe value }

/-- `AVP::from_tagged_u32` — radius/src/core/avp.rs:88-100. -/
def fromTaggedU32 (typ : AVPType) (tag : Option Tag) (value : UInt32) : AVP :=
  let tag := match tag with
    | none => { value := UNUSED_TAG_VALUE : Tag }
    | some tag => tag
  { typ, value := [tag.value] ++ u32ToBe value }

/-- `AVP::from_string` — radius/src/core/avp.rs:103-108. -/
def fromString (typ : AVPType) (value : String) : AVP := { typ, value := strBytes value }

/-- `AVP::from_tagged_string` — radius/src/core/avp.rs:111-122. -/
def fromTaggedString (typ : AVPType) (tag : Option Tag) (value : String) : AVP :=
  match tag with
  | none => { typ, value := strBytes value }
  | some tag => { typ, value := [tag.value] ++ strBytes value }

/-- `AVP::from_bytes` — radius/src/core/avp.rs:125-130. -/
def fromBytes (typ : AVPType) (value : Bytes) : AVP := { typ, value }

/-- `AVP::from_ipv4` — radius/src/core/avp.rs:133-138. -/
def fromIpv4 (typ : AVPType) (value : Ipv4Addr) : AVP := { typ, value := value.octets }

/-- `AVP::from_ipv4_prefix` — radius/src/core/avp.rs:141-154. -/
def fromIpv4Prefix (typ : AVPType) (pfx : Bytes) : Out AVPError AVP :=
  let prefixLen := pfx.length
  if prefixLen ≠ 4 then .err (.InvalidAttributeLengthError "4 bytes" prefixLen)
  else .ok { typ, value := [0x00, UInt8.ofNat prefixLen &&& 0b00111111] ++ pfx }

/-- `AVP::from_ipv6` — radius/src/core/avp.rs:157-162. -/
def fromIpv6 (typ : AVPType) (value : Ipv6Addr) : AVP := { typ, value := value.octets }

/-- `AVP::from_ipv6_prefix` — radius/src/core/avp.rs:165-178. -/
def fromIpv6Prefix (typ : AVPType) (pfx : Bytes) : Out AVPError AVP :=
  let prefixLen := pfx.length
  if prefixLen > 16 then .err (.InvalidAttributeLengthError "16 bytes" prefixLen)
  else .ok { typ, value := [0x00, UInt8.ofNat (prefixLen * 8)] ++ pfx }

/-- Zero padding of a chunk — radius/src/core/avp.rs:230-234 and 413-417. -/
def padChunk (chunk : Bytes) : Bytes :=
  let l := chunk.length
  if l < 16 then chunk ++ List.replicate (16 - l) 0 else chunk

/-- The loop `for chunk in plain_text.chunks(16)` of the hiding functions — radius/src/core/avp.rs:229-243
(user password) and 412-426 (tunnel password): `buff` is the chaining block, `enc` the output so far. -/
def hideLoop (H : Hash) (secret : Bytes) : List Bytes → (buff enc : Bytes) → Bytes
  | [], _, enc => enc
  | chunk :: rest, buff, enc =>
    let encBlock := (H (secret ++ buff)).val
    let buff' := xorBytes encBlock (padChunk chunk)
    hideLoop H secret rest buff' (enc ++ buff')

/-- `AVP::from_user_password` — radius/src/core/avp.rs:183-246. -/
def fromUserPassword (H : Hash) (typ : AVPType) (plainText secret requestAuthenticator : Bytes) :
    Out AVPError AVP :=
  if plainText.length > 128 then
    .err (.UserPasswordPlainTextMaximumLengthExceededError plainText.length)
  else if secret.isEmpty then .err .PasswordSecretMissingError
  else if requestAuthenticator.length ≠ 16 then .err .InvalidRequestAuthenticatorLength
  else
    let buff := requestAuthenticator
    if plainText.isEmpty then
      let enc := (H (secret ++ buff)).val
      .ok { typ, value := xorBytes enc (List.replicate 16 0) }
    else
      .ok { typ, value := hideLoop H secret (chunks 15 plainText) buff [] }

/-- `AVP::from_date` — radius/src/core/avp.rs:331-336; `dt.timestamp() as u32` keeps the low 32 bits of
the two's complement `i64`. -/
def fromDate (typ : AVPType) (dt : DateTime) : AVP :=
  { typ, value := u32ToBe (UInt32.ofNat (dt.secs.emod 4294967296).toNat) }

/-- `AVP::from_tunnel_password` — radius/src/core/avp.rs:341-429; `r0`, `r1` are the two random bytes of
line 378. -/
def fromTunnelPassword (H : Hash) (r0 r1 : UInt8) (typ : AVPType) (tag : Option Tag)
    (plainText secret requestAuthenticator : Bytes) : Out AVPError AVP :=
  if requestAuthenticator.length > 240 then
    .err (.InvalidAttributeLengthError "240 bytes" requestAuthenticator.length)
  else
    let salt : Bytes := [r0 ||| 0x80, r1]
    if secret.isEmpty then .err .PasswordSecretMissingError
    else if requestAuthenticator.length ≠ 16 then .err .InvalidRequestAuthenticatorLength
    else
      let enc : Bytes := [tag.elim UNUSED_TAG_VALUE (fun v => v.value)] ++ salt
      let buff := requestAuthenticator ++ salt
      if plainText.isEmpty then
        .ok { typ, value := enc ++ xorBytes (H (secret ++ buff)).val (List.replicate 16 0) }
      else
        .ok { typ, value := hideLoop H secret (chunks 15 plainText) buff enc }

/-- `AVP::encode_u32` — radius/src/core/avp.rs:537-551. -/
def encodeU32 (self : AVP) : Out AVPError UInt32 :=
  if self.value.length ≠ 4 then .err (.InvalidAttributeLengthError "4 bytes" self.value.length)
  else match self.value.take 4 with
    | [a, b, c, d] => .ok (u32FromBe a b c d)
    | _ => .err (.DecodingError "could not convert slice to array")

/-- `AVP::encode_u16` — radius/src/core/avp.rs:554-568. -/
def encodeU16 (self : AVP) : Out AVPError UInt16 :=
  if self.value.length ≠ 2 then .err (.InvalidAttributeLengthError "2 bytes" self.value.length)
  else match self.value.take 2 with
    | [a, b] => .ok (u16FromBe a b)
    | _ => .err (.DecodingError "could not convert slice to array")

/-- `AVP::encode_tagged_u32` — radius/src/core/avp.rs:571-599. -/
def encodeTaggedU32 (self : AVP) : Out AVPError (UInt32 × Tag) :=
  if self.value.isEmpty then .err .TagMissingError
  else do
    let tag : Tag := { value := ← idx self.value 0 }
    if !tag.isValidValue && !tag.isZero then .err .InvalidTagForIntegerValueError
    else
      let rest ← sliceFrom self.value 1
      if rest.length ≠ 4 then .err (.InvalidAttributeLengthError "5 bytes" self.value.length)
      else match rest.take 4 with
        | [a, b, c, d] => .ok (u32FromBe a b c d, tag)
        | _ => .err (.DecodingError "could not convert slice to array")

/-- `AVP::encode_string` — radius/src/core/avp.rs:602-607. -/
def encodeString (self : AVP) : Out AVPError String := stringFromUtf8 self.value

/-- `AVP::encode_tagged_string` — radius/src/core/avp.rs:610-643. -/
def encodeTaggedString (self : AVP) : Out AVPError (String × Option Tag) :=
  let stringVec := self.value
  if stringVec.isEmpty then .err .TagMissingError
  else do
    let tag : Tag := { value := ← idx stringVec 0 }
    if tag.isValidValue then
      let str ← stringFromUtf8 (← sliceFrom stringVec 1)
      .ok (str, some tag)
    else if tag.isZero then .err .InvalidTagForStringValueError
    else
      let str ← stringFromUtf8 self.value
      .ok (str, none)

/-- `AVP::encode_bytes` — radius/src/core/avp.rs:646-648. -/
def encodeBytes (self : AVP) : Bytes := self.value

/-- `AVP::encode_ipv4` — radius/src/core/avp.rs:651-665. -/
def encodeIpv4 (self : AVP) : Out AVPError Ipv4Addr :=
  if self.value.length ≠ 4 then .err (.InvalidAttributeLengthError "4 bytes" self.value.length)
  else match self.value.take 4 with
    | [a, b, c, d] => .ok ⟨a, b, c, d⟩
    | _ => .err (.DecodingError "could not convert slice to array")

/-- `AVP::encode_ipv4_prefix` — radius/src/core/avp.rs:668-676. -/
def encodeIpv4Prefix (self : AVP) : Out AVPError Bytes :=
  if self.value.length == 6 then sliceFrom self.value 2
  else .err (.InvalidAttributeLengthError "6 bytes" self.value.length)

/-- `AVP::encode_ipv6` — radius/src/core/avp.rs:679-693. -/
def encodeIpv6 (self : AVP) : Out AVPError Ipv6Addr :=
  if self.value.length ≠ 16 then .err (.InvalidAttributeLengthError "16 bytes" self.value.length)
  else if h : (self.value.take 16).length = 16 then .ok ⟨self.value.take 16, h⟩
  else .err (.DecodingError "could not convert slice to array")

/-- `AVP::encode_ipv6_prefix` — radius/src/core/avp.rs:696-704. -/
def encodeIpv6Prefix (self : AVP) : Out AVPError Bytes :=
  if self.value.length ≥ 2 then sliceFrom self.value 2
  else .err (.InvalidAttributeLengthError "2+ bytes" self.value.length)

/-- The loop `for chunk in value.chunks(16)` of the revealing functions — radius/src/core/avp.rs:734-745
(user password) and 861-872 (tunnel password). -/
def revealLoop (H : Hash) (secret : Bytes) : List Bytes → (buff dec : Bytes) → Bytes
  | [], _, dec => dec
  | chunk :: rest, buff, dec =>
    let decBlock := (H (secret ++ buff)).val
    revealLoop H secret rest chunk (dec ++ xorBytes decBlock chunk)

/-- `dec.split(|b| *b == 0).next()` and the following match — radius/src/core/avp.rs:748-751 and 875-878. -/
def upToZero (dec : Bytes) : Bytes :=
  match (splitOn (fun b => b == 0) dec).head? with
  | some dec => dec
  | none => []

/-- `AVP::encode_user_password` — radius/src/core/avp.rs:708-752. -/
def encodeUserPassword (H : Hash) (self : AVP) (secret requestAuthenticator : Bytes) :
    Out AVPError Bytes :=
  if self.value.length < 16 ∨ self.value.length > 128 then
    .err (.InvalidAttributeLengthError "16 >= bytes && 128 <= bytes" self.value.length)
  else if secret.isEmpty then .err .PasswordSecretMissingError
  else if requestAuthenticator.length ≠ 16 then .err .InvalidRequestAuthenticatorLength
  else
    let dec := revealLoop H secret (chunks 15 self.value) requestAuthenticator []
    .ok (upToZero dec)

/-- `Utc.timestamp_opt(timestamp as i64, 0).unwrap()` in `encode_date` — radius/src/core/avp.rs:822-823. -/
def dateOf (timestamp : UInt32) : Out AVPError DateTime :=
  match timestampOpt (timestamp.toNat : Int) with
  | some dt => .ok dt
  | none => .panic

/-- `<[u8; 4]>::try_from(slice)` followed by `u32::from_be_bytes`, with the error of `encode_date` —
radius/src/core/avp.rs:818-824. -/
def u32OfSlice : Bytes → Out AVPError UInt32
  | [a, b, c, d] => .ok (u32FromBe a b c d)
  | _ => .err (.DecodingError "could not convert slice to array")

/-- `AVP::encode_date` — radius/src/core/avp.rs:808-825. -/
def encodeDate (self : AVP) : Out AVPError DateTime :=
  if self.value.length ≠ 4 then .err (.InvalidAttributeLengthError "4" self.value.length)
  else u32OfSlice (self.value.take 4) >>= dateOf

/-- `AVP::encode_tunnel_password` — radius/src/core/avp.rs:829-879. -/
def encodeTunnelPassword (H : Hash) (self : AVP) (secret requestAuthenticator : Bytes) :
    Out AVPError (Bytes × Tag) :=
  if self.value.length < 19 ∨ self.value.length > 243 ∨ (self.value.length - 3) % 16 ≠ 0 then
    .err (.InvalidAttributeLengthError "19 <= bytes && bytes <= 242 && (bytes - 3) % 16 == 0"
      self.value.length)
  else do
    let v1 ← idx self.value 1
    if v1 &&& 0x80 ≠ 0x80 then .err (.InvalidSaltMSBError v1)
    else if secret.isEmpty then .err .PasswordSecretMissingError
    else if requestAuthenticator.length ≠ 16 then .err .InvalidRequestAuthenticatorLength
    else
      let tag : Tag := { value := ← idx self.value 0 }
      let buff := requestAuthenticator ++ (← slice self.value 1 3)
      let body ← sliceFrom self.value 3
      let dec := revealLoop H secret (chunks 15 body) buff []
      .ok (upToZero dec, tag)

end AVP
end Radius

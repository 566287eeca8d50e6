import Verif.Model.Packet
/-! # The accessor functions of the generated modules `radius/src/core/rfcXXXX.rs`

Every attribute gets `delete_*`, `add_*`, `lookup_*` and (mostly) `lookup_all_*` functions instantiated from
a template of `code-generator/src/main.rs`, with the type code as the only parameter. Each family is
modelled once, with the type code `t` as argument; `Verif/Model/Shipped/Table.lean` lists the instances. -/
namespace Radius

/-- The families of accessors, one per `generate_*_attribute_code` function —
code-generator/src/main.rs:266-376. -/
inductive Kind where
  | string | taggedString | userPassword | tunnelPassword | octets | concatOctets
  | fixedOctets (n : Nat)
  | ipv4 | ipv4Prefix | ipv6 | ipv6Prefix | date
  | integer | taggedInteger | valueInteger | taggedValueInteger | short | vsa
deriving Repr, DecidableEq

/-- What `add_*` takes besides the packet. Tunnel passwords also consume two random bytes; attributes of
kind `vsa` have no `add_*` function. -/
def Kind.Arg : Kind → Type
  | .string => String
  | .taggedString => Option Tag × String
  | .userPassword => Bytes
  | .tunnelPassword => (UInt8 × UInt8) × Option Tag × Bytes
  | .octets => Bytes
  | .concatOctets => Bytes
  | .fixedOctets _ => Bytes
  | .ipv4 => Ipv4Addr
  | .ipv4Prefix => Bytes
  | .ipv6 => Ipv6Addr
  | .ipv6Prefix => Bytes
  | .date => DateTime
  | .integer => UInt32
  | .taggedInteger => Option Tag × UInt32
  | .valueInteger => UInt32
  | .taggedValueInteger => Option Tag × UInt32
  | .short => UInt16
  | .vsa => Empty

/-- What `lookup_*` returns on success. -/
def Kind.Val : Kind → Type
  | .string => String
  | .taggedString => String × Option Tag
  | .userPassword => Bytes
  | .tunnelPassword => Bytes × Tag
  | .octets => Bytes
  | .concatOctets => Bytes
  | .fixedOctets _ => Bytes
  | .ipv4 => Ipv4Addr
  | .ipv4Prefix => Bytes
  | .ipv6 => Ipv6Addr
  | .ipv6Prefix => Bytes
  | .date => DateTime
  | .integer => UInt32
  | .taggedInteger => UInt32 × Tag
  | .valueInteger => UInt32
  | .taggedValueInteger => UInt32 × Tag
  | .short => UInt16
  | .vsa => Empty

namespace Gen

/-- `packet.add(AVP::from_*(..)?); Ok(())`: the packet is changed only on success. -/
def addChecked (p : Packet) (a : Out AVPError AVP) : Packet × Out AVPError Unit :=
  match a with
  | .ok avp => (p.add avp, .ok ())
  | .err e => (p, .err e)
  | .panic => (p, .panic)

/-- `delete_*` — code-generator/src/main.rs:388-390, e.g. radius/src/core/rfc2865.rs:742-744. -/
def delete (t : AVPType) (p : Packet) : Packet := p.delete t

/-- `add_*` of string attributes — code-generator/src/main.rs:406-408. -/
def addString (t : AVPType) (p : Packet) (value : String) : Packet := p.add (AVP.fromString t value)

/-- `add_*` of tagged string attributes — code-generator/src/main.rs:435-437. -/
def addTaggedString (t : AVPType) (p : Packet) (tag : Option Tag) (value : String) : Packet :=
  p.add (AVP.fromTaggedString t tag value)

/-- `add_*` of user password attributes — code-generator/src/main.rs:464-467. -/
def addUserPassword (H : Hash) (t : AVPType) (p : Packet) (value : Bytes) : Packet × Out AVPError Unit :=
  addChecked p (AVP.fromUserPassword H t value p.getSecret p.getAuthenticator)

/-- `add_*` of tunnel password attributes — code-generator/src/main.rs:493-496. -/
def addTunnelPassword (H : Hash) (r0 r1 : UInt8) (t : AVPType) (p : Packet) (tag : Option Tag)
    (value : Bytes) : Packet × Out AVPError Unit :=
  addChecked p (AVP.fromTunnelPassword H r0 r1 t tag value p.getSecret p.getAuthenticator)

/-- `add_*` of octets attributes — code-generator/src/main.rs:522-524. -/
def addOctets (t : AVPType) (p : Packet) (value : Bytes) : Packet := p.add (AVP.fromBytes t value)

/-- `add_*` of concatenated octets attributes — code-generator/src/main.rs:549-556. -/
def addConcatOctets (t : AVPType) (p : Packet) (value : Bytes) : Packet :=
  p.extend ((chunks 252 value).map (fun chunk => AVP.fromBytes t chunk))

/-- `add_*` of fixed-length octets attributes — code-generator/src/main.rs:580-586. -/
def addFixedOctets (n : Nat) (t : AVPType) (p : Packet) (value : Bytes) : Packet × Out AVPError Unit :=
  if value.length ≠ n then
    (p, .err (.InvalidAttributeLengthError (toString n ++ " bytes") value.length))
  else (p.add (AVP.fromBytes t value), .ok ())

/-- `add_*` of ipaddr attributes — code-generator/src/main.rs:613-615. -/
def addIpv4 (t : AVPType) (p : Packet) (value : Ipv4Addr) : Packet := p.add (AVP.fromIpv4 t value)

/-- `add_*` of ipv4prefix attributes — code-generator/src/main.rs:642-645. -/
def addIpv4Prefix (t : AVPType) (p : Packet) (value : Bytes) : Packet × Out AVPError Unit :=
  addChecked p (AVP.fromIpv4Prefix t value)

/-- `add_*` of ipv6addr attributes — code-generator/src/main.rs:672-674. -/
def addIpv6 (t : AVPType) (p : Packet) (value : Ipv6Addr) : Packet := p.add (AVP.fromIpv6 t value)

/-- `add_*` of ipv6prefix attributes — code-generator/src/main.rs:701-704. -/
def addIpv6Prefix (t : AVPType) (p : Packet) (value : Bytes) : Packet × Out AVPError Unit :=
  addChecked p (AVP.fromIpv6Prefix t value)

/-- `add_*` of date attributes — code-generator/src/main.rs:731-733. -/
def addDate (t : AVPType) (p : Packet) (value : DateTime) : Packet := p.add (AVP.fromDate t value)

/-- `add_*` of integer attributes — code-generator/src/main.rs:760-762; value-defined ones (819-821) are the
same, as every value type is an alias of `u32` (line 15). -/
def addInteger (t : AVPType) (p : Packet) (value : UInt32) : Packet := p.add (AVP.fromU32 t value)

/-- `add_*` of tagged integer attributes — code-generator/src/main.rs:789-791, and value-defined ones
(849-851). -/
def addTaggedInteger (t : AVPType) (p : Packet) (tag : Option Tag) (value : UInt32) : Packet :=
  p.add (AVP.fromTaggedU32 t tag value)

/-- `add_*` of short attributes — code-generator/src/main.rs:882-884. -/
def addShort (t : AVPType) (p : Packet) (value : UInt16) : Packet := p.add (AVP.fromU16 t value)

/-- `add_*` by family. -/
def add (H : Hash) (t : AVPType) (p : Packet) : (k : Kind) → k.Arg → Packet × Out AVPError Unit
  | .string, v => (addString t p v, .ok ())
  | .taggedString, (tag, v) => (addTaggedString t p tag v, .ok ())
  | .userPassword, v => addUserPassword H t p v
  | .tunnelPassword, ((r0, r1), tag, v) => addTunnelPassword H r0 r1 t p tag v
  | .octets, v => (addOctets t p v, .ok ())
  | .concatOctets, v => (addConcatOctets t p v, .ok ())
  | .fixedOctets n, v => addFixedOctets n t p v
  | .ipv4, v => (addIpv4 t p v, .ok ())
  | .ipv4Prefix, v => addIpv4Prefix t p v
  | .ipv6, v => (addIpv6 t p v, .ok ())
  | .ipv6Prefix, v => addIpv6Prefix t p v
  | .date, v => (addDate t p v, .ok ())
  | .integer, v => (addInteger t p v, .ok ())
  | .taggedInteger, (tag, v) => (addTaggedInteger t p tag v, .ok ())
  | .valueInteger, v => (addInteger t p v, .ok ())
  | .taggedValueInteger, (tag, v) => (addTaggedInteger t p tag v, .ok ())
  | .short, v => (addShort t p v, .ok ())

/-- How one attribute is decoded by `lookup_*` and `lookup_all_*` of a family (closures of
code-generator/src/main.rs:413, 442, 472, 501, 529, 591, 620, 650, 679, 709, 738, 767, 796, 826, 856-859,
889): passwords use the secret and the authenticator of the packet. -/
def decode (H : Hash) (p : Packet) : (k : Kind) → AVP → Out AVPError k.Val
  | .string, a => a.encodeString
  | .taggedString, a => a.encodeTaggedString
  | .userPassword, a => a.encodeUserPassword H p.getSecret p.getAuthenticator
  | .tunnelPassword, a => a.encodeTunnelPassword H p.getSecret p.getAuthenticator
  | .octets, a => .ok a.encodeBytes
  | .concatOctets, a => .ok a.encodeBytes
  | .fixedOctets _, a => .ok a.encodeBytes
  | .ipv4, a => a.encodeIpv4
  | .ipv4Prefix, a => a.encodeIpv4Prefix
  | .ipv6, a => a.encodeIpv6
  | .ipv6Prefix, a => a.encodeIpv6Prefix
  | .date, a => a.encodeDate
  | .integer, a => a.encodeU32
  | .taggedInteger, a => a.encodeTaggedU32
  | .valueInteger, a => a.encodeU32
  | .taggedValueInteger, a => a.encodeTaggedU32
  | .short, a => a.encodeU16
  | .vsa, _ => .panic

/-- `lookup_*` of concatenated octets attributes — code-generator/src/main.rs:557-566. -/
def lookupConcatOctets (t : AVPType) (p : Packet) : Option Bytes :=
  let avps := p.lookupAll t
  match avps.isEmpty with
  | true => none
  | false => some (avps.foldl (fun acc v => acc ++ v.encodeBytes) [])

/-- `lookup_*` by family: `packet.lookup(T).map(..)` except for concatenated octets. Attributes of kind
`vsa` have no such function (`none` here). -/
def lookup (H : Hash) (t : AVPType) (p : Packet) : (k : Kind) → Option (Out AVPError k.Val)
  | .concatOctets => (lookupConcatOctets t p).map .ok
  | .vsa => none
  | k => (p.lookup t).map (fun v => decode H p k v)

/-- The loop `for avp in packet.lookup_all(T) { vec.push(..?) }` — e.g. code-generator/src/main.rs:416-422. -/
def collect {α : Type} (f : AVP → Out AVPError α) : List AVP → List α → Out AVPError (List α)
  | [], vec => .ok vec
  | avp :: rest, vec => do
    let v ← f avp
    collect f rest (vec ++ [v])

/-- Whether a `lookup_all_*` function is generated. -/
def hasLookupAll : Kind → Bool
  | .concatOctets => false
  | .vsa => false
  | _ => true

/-- `lookup_all_*` by family (for the families that have it). -/
def lookupAll (H : Hash) (t : AVPType) (p : Packet) (k : Kind) : Out AVPError (List k.Val) :=
  collect (decode H p k) (p.lookupAll t) []

end Gen
end Radius

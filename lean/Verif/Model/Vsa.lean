import Verif.Model.Packet
/-! # `radius/src/core/vsa.rs` and `rfc2865::add_vsa_attribute` -/
namespace Radius

/-- `i32::to_be_bytes` (std): the two's complement in network order. -/
def i32ToBe (n : Int32) : Bytes := u32ToBe n.toUInt32

/-- `struct StringVSA` — radius/src/core/vsa.rs:20-25. -/
structure StringVSA where
  vendorId : Bytes
  vendorType : UInt8
  length : UInt8
  value : Bytes
deriving Repr, DecidableEq

namespace StringVSA

/-- `StringVSA::BYTE_SIZE_OFFSET` — radius/src/core/vsa.rs:28. -/
def BYTE_SIZE_OFFSET : Nat := 2

/-- `StringVSA::new` — radius/src/core/vsa.rs:30-45. -/
def new (vendorId : Int32) (vendorType : UInt8) (value : String) : StringVSA :=
  { vendorId := i32ToBe vendorId
    vendorType
    length := UInt8.ofNat (BYTE_SIZE_OFFSET + (strBytes value).length)
    value := strBytes value }

/-- `<StringVSA as VSA>::len` — radius/src/core/vsa.rs:49-51. -/
def len (self : StringVSA) : Nat := self.length.toNat

/-- `<StringVSA as VSA>::is_empty` — radius/src/core/vsa.rs:53-55. -/
def isEmpty (self : StringVSA) : Bool := self.length == 0

/-- `<StringVSA as VSA>::message` — radius/src/core/vsa.rs:71-80. -/
def message (self : StringVSA) : Bytes :=
  let result : Bytes := []
  let result := result ++ self.vendorId
  let result := result ++ [self.vendorType, self.length]
  let result := result ++ self.value
  result

end StringVSA

/-- `struct TaggedStringVSA` — radius/src/core/vsa.rs:85-91. -/
structure TaggedStringVSA where
  vendorId : Bytes
  vendorType : UInt8
  length : UInt8
  tag : UInt8
  value : Bytes
deriving Repr, DecidableEq

namespace TaggedStringVSA

/-- `TaggedStringVSA::BYTE_SIZE_OFFSET` — radius/src/core/vsa.rs:94. -/
def BYTE_SIZE_OFFSET : Nat := 3

/-- `TaggedStringVSA::new` — radius/src/core/vsa.rs:96-112. -/
def new (vendorId : Int32) (vendorType tag : UInt8) (value : String) : TaggedStringVSA :=
  { vendorId := i32ToBe vendorId
    vendorType
    length := UInt8.ofNat (BYTE_SIZE_OFFSET + (strBytes value).length)
    tag
    value := strBytes value }

/-- `<TaggedStringVSA as VSA>::len` — radius/src/core/vsa.rs:116-118. -/
def len (self : TaggedStringVSA) : Nat := self.length.toNat

/-- `<TaggedStringVSA as VSA>::is_empty` — radius/src/core/vsa.rs:120-122. -/
def isEmpty (self : TaggedStringVSA) : Bool := self.length == 0

/-- `<TaggedStringVSA as VSA>::message` — radius/src/core/vsa.rs:138-147. -/
def message (self : TaggedStringVSA) : Bytes :=
  let result : Bytes := []
  let result := result ++ self.vendorId
  let result := result ++ [self.vendorType, self.length, self.tag]
  let result := result ++ self.value
  result

end TaggedStringVSA

/-- `VENDOR_SPECIFIC_TYPE` — radius/src/core/rfc2865.rs:740. -/
def VENDOR_SPECIFIC_TYPE : AVPType := 26

/-- `rfc2865::add_vsa_attribute` — radius/src/core/rfc2865.rs:361-364; `message` is `value.message()` of the
trait object. -/
def addVsaAttribute (p : Packet) (message : Bytes) : Packet :=
  p.add (AVP.fromBytes VENDOR_SPECIFIC_TYPE message)

end Radius

import Verif.Spec.Values
/-! # Specification: Vendor-Specific attributes (RFC 2865 section 5.26)

Independent of the model: a reader for the value of a Vendor-Specific attribute with one sub-attribute. -/
namespace Radius.Spec

/-- Reads vendor id, vendor type and the data of the single sub-attribute. The vendor length counts vendor type,
vendor length and data. -/
def readVsa : Bytes → Option (Nat × Nat × Bytes)
  | a :: b :: c :: d :: typ :: len :: data =>
    if len.toNat = data.length + 2 then some (beNat [a, b, c, d], typ.toNat, data) else none
  | _ => none

/-- A vendor id as an unsigned 32 bit number: `i32` in two's complement. -/
def vendorNumber (id : Int) : Nat := (id % 4294967296).toNat

end Radius.Spec

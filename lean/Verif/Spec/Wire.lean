import Verif.Model.Avp
/-!
# Specification: the RFC 2865 wire language

Grammar only; refers to the data type `AVP` but to none of the functions of the model.
-/
namespace Radius.Spec

/-- `AttrsWire attrs w`: the bytes `w` are exactly the concatenation of the attributes `attrs`, each
written as type byte, length byte (value length + 2) and at most 253 value bytes (RFC 2865 section 5). -/
inductive AttrsWire : List AVP → Bytes → Prop
  | nil : AttrsWire [] []
  | cons (t l : UInt8) (v : Bytes) (attrs : List AVP) (w : Bytes) :
      v.length ≤ 253 → l.toNat = v.length + 2 → AttrsWire attrs w →
      AttrsWire (⟨t, v⟩ :: attrs) (t :: l :: (v ++ w))

/-- `AttrsBad msg w`: after zero or more well-formed attributes `w` has a malformed one: a single left
over byte, or a length byte below 2 or beyond the end. -/
inductive AttrsBad : String → Bytes → Prop
  | short (t : UInt8) : AttrsBad "short buffer" [t]
  | length (t l : UInt8) (w : Bytes) : (l.toNat < 2 ∨ w.length + 2 < l.toNat) →
      AttrsBad "invalid attribute length" (t :: l :: w)
  | skip (msg : String) (t l : UInt8) (v w : Bytes) :
      v.length ≤ 253 → l.toNat = v.length + 2 → AttrsBad msg w → AttrsBad msg (t :: l :: (v ++ w))

/-- Number of bytes the attributes take on the wire (2 bytes of overhead each). -/
def wireSize (attrs : List AVP) : Nat := (attrs.map (fun a => a.value.length + 2)).sum

/-- `Datagram bs code ident auth attrs`: `bs` is a RADIUS packet with these header fields and attributes,
possibly followed by padding (RFC 2865 section 3). -/
def Datagram (bs : Bytes) (code ident : UInt8) (auth : Bytes) (attrs : List AVP) : Prop :=
  ∃ (hi lo : UInt8) (body padding : Bytes),
    bs = [code, ident, hi, lo] ++ auth ++ body ++ padding ∧
    auth.length = 16 ∧
    AttrsWire attrs body ∧
    hi.toNat * 256 + lo.toNat = 20 + body.length ∧
    20 + body.length ≤ 4096

/-- The packet type assigned to a code byte by RFC 2865/2866/5176 (names as in the library). -/
def codeOf (b : UInt8) : String :=
  match b.toNat with
  | 1 => "Access-Request" | 2 => "Access-Accept" | 3 => "Access-Reject"
  | 4 => "Accounting-Request" | 5 => "Accounting-Response" | 11 => "Access-Challenge"
  | 12 => "Status-Server" | 13 => "Status-Client" | 40 => "Disconnect-Request"
  | 41 => "Disconnect-ACK" | 42 => "Disconnect-NAK" | 43 => "CoA-Request" | 44 => "CoA-ACK"
  | 45 => "CoA-NAK" | 255 => "Reserved" | _ => "Invalid"

end Radius.Spec

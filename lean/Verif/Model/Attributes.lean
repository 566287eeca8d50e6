import Verif.Model.Avp
/-! # `radius/src/core/attributes.rs`

`struct Attributes(Vec<AVP>)` (lines 3-4) is modelled as `List AVP`. -/
namespace Radius

/-- `struct Attributes` — radius/src/core/attributes.rs:4. -/
abbrev Attributes := List AVP

namespace Attributes

/-- The `while bs.len() > i` loop of `Attributes::decode` — radius/src/core/attributes.rs:8-33. -/
def decodeLoop (bs : Bytes) (i : Nat) (attrs : List AVP) : Out String Attributes :=
  if _hi : bs.length > i then do
    let rest ← sliceFrom bs i
    if rest.length < 2 then .err "short buffer"
    else
      let length := (← idx bs (i + 1)).toNat
      if _hl : length > rest.length ∨ ¬ (2 ≤ length ∧ length ≤ 255) then
        .err "invalid attribute length"
      else
        let typ ← idx bs i
        let value ← if length > 2 then slice bs (i + 2) (i + length) else .ok []
        decodeLoop bs (i + length) (attrs ++ [{ typ, value }])
  else .ok attrs
termination_by bs.length - i
decreasing_by omega

/-- `Attributes::decode` — radius/src/core/attributes.rs:7-34. -/
def decode (bs : Bytes) : Out String Attributes := decodeLoop bs 0 []

/-- `Attributes::add` — radius/src/core/attributes.rs:36-38. -/
def add (self : Attributes) (avp : AVP) : Attributes := self ++ [avp]

/-- `Attributes::extend` — radius/src/core/attributes.rs:40-42. -/
def extend (self : Attributes) (avps : List AVP) : Attributes := self ++ avps

/-- `Attributes::del` — radius/src/core/attributes.rs:44-46. -/
def del (self : Attributes) (typ : AVPType) : Attributes := self.filter (fun avp => avp.typ != typ)

/-- `Attributes::lookup` — radius/src/core/attributes.rs:48-50. -/
def lookup (self : Attributes) (typ : AVPType) : Option AVP := self.find? (fun avp => avp.typ == typ)

/-- `Attributes::lookup_all` — radius/src/core/attributes.rs:52-54. -/
def lookupAll (self : Attributes) (typ : AVPType) : List AVP :=
  self.filter (fun avp => avp.typ == typ)

/-- The `for avp in &self.0` loop of `Attributes::encode` — radius/src/core/attributes.rs:57-69. -/
def encodeLoop (ck : Bool) : Attributes → Bytes → Out String Bytes
  | [], encoded => .ok encoded
  | avp :: rest, encoded =>
    let attrLen := avp.value.length
    if attrLen > 253 then .err "attribute is too large"
    else do
      let l ← addU8 ck 2 (UInt8.ofNat attrLen)
      encodeLoop ck rest (encoded ++ [avp.typ] ++ [l] ++ avp.value)

/-- `Attributes::encode` — radius/src/core/attributes.rs:56-70. -/
def encode (ck : Bool) (self : Attributes) : Out String Bytes := encodeLoop ck self []

end Attributes
end Radius

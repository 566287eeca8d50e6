import Verif.Model.Packet
/-! # `Debug` of packets

`format!("{:?}", packet)` without the alternate flag: the text built by `f.debug_struct` and the derived
implementations of `AVP`, `Attributes` and `Vec`. -/
namespace Radius

/-- `Debug` of `Vec<u8>`: `[1, 2]`. -/
def debugBytes (bs : Bytes) : String :=
  "[" ++ String.intercalate ", " (bs.map (fun b => toString b.toNat)) ++ "]"

/-- Derived `Debug` of `AVP` — radius/src/core/avp.rs:64-68. -/
def AVP.debug (a : AVP) : String :=
  "AVP { typ: " ++ toString a.typ.toNat ++ ", value: " ++ debugBytes a.value ++ " }"

/-- Derived `Debug` of `Attributes` — radius/src/core/attributes.rs:3-4. -/
def Attributes.debug (as : Attributes) : String :=
  "Attributes([" ++ String.intercalate ", " (as.map AVP.debug) ++ "])"

/-- `impl Debug for Packet` — radius/src/core/packet.rs:442-452. -/
def Packet.debug (self : Packet) : String :=
  "Packet { code: " ++ self.code.debug ++
  ", identifier: " ++ toString self.identifier.toNat ++
  ", authenticator: " ++ debugBytes self.authenticator ++
  ", secret: " ++ "\"*redacted*\"" ++
  ", attributes: " ++ Attributes.debug self.attributes ++ " }"

end Radius

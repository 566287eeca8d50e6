import Verif.Model.Debug
import Verif.Props.Encode
/-! # C35: debug output -/
namespace Radius

/-- **C35** Packets that differ only in the secret have the same debug output. -/
theorem C35_debug_hides_secret (p q : Packet) (hc : p.code = q.code) (hi : p.identifier = q.identifier)
    (ha : p.authenticator = q.authenticator) (hs : p.attributes = q.attributes) : p.debug = q.debug := by
  unfold Packet.debug
  rw [hc, hi, ha, hs]

/-- Two different packets with the same output, and what the output is. -/
example : samplePacket .AccessRequest ≠ { samplePacket .AccessRequest with secret := [7] } := by decide +kernel
example : ({ samplePacket .AccessRequest with secret := [7] } : Packet).debug =
    "Packet { code: AccessRequest, identifier: 9, authenticator: " ++
    "[0, 7, 14, 21, 28, 35, 42, 49, 56, 63, 70, 77, 84, 91, 98, 105], secret: \"*redacted*\", " ++
    "attributes: Attributes([AVP { typ: 1, value: [97, 98] }, AVP { typ: 18, value: [99] }]) }" := by
  decide +kernel

end Radius

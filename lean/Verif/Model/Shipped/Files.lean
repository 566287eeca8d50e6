import Verif.Model.Shipped.Dicts
import Verif.Model.Shipped.Modules
import Verif.Model.Shipped.Table
/-! # The shipped dictionaries with the modules made from them -/
namespace Radius.Gen.Shipped

/-- A dictionary, its contents, and the module in radius/src/core made from it. -/
structure Entry where
  rfcName : Str
  dict : List Str
  table : Dict
  module : List Str

/-- The dictionary as a file. -/
noncomputable def Entry.file (e : Entry) : DictFile := ⟨e.rfcName, unlines e.dict⟩

/-- radius/src/core/rfc2865.rs:361-365: the one function in the modules that the generator does not write. -/
noncomputable def addVsaAttribute : List Str := [
  c!"/// Add `vsa_attribute` vsa value to a packet.",
  c!"pub fn add_vsa_attribute(packet: &mut Packet, value: &dyn VSA) {",
  c!"    packet.add(AVP::from_bytes(VENDOR_SPECIFIC_TYPE, &value.message()));",
  c!"}",
  c!""]

/-- radius/src/core/rfc2865.rs without `addVsaAttribute`. -/
noncomputable def rfc2865Generated : List Str := rfc2865Module.take 360 ++ rfc2865Module.drop 365

noncomputable def rfc2865 : Entry := ⟨c!"rfc2865", rfc2865Dict, rfc2865Table, rfc2865Generated⟩
noncomputable def rfc2866 : Entry := ⟨c!"rfc2866", rfc2866Dict, rfc2866Table, rfc2866Module⟩
noncomputable def rfc2867 : Entry := ⟨c!"rfc2867", rfc2867Dict, rfc2867Table, rfc2867Module⟩
noncomputable def rfc2868 : Entry := ⟨c!"rfc2868", rfc2868Dict, rfc2868Table, rfc2868Module⟩
noncomputable def rfc2869 : Entry := ⟨c!"rfc2869", rfc2869Dict, rfc2869Table, rfc2869Module⟩
noncomputable def rfc3162 : Entry := ⟨c!"rfc3162", rfc3162Dict, rfc3162Table, rfc3162Module⟩
noncomputable def rfc3576 : Entry := ⟨c!"rfc3576", rfc3576Dict, rfc3576Table, rfc3576Module⟩
noncomputable def rfc3580 : Entry := ⟨c!"rfc3580", rfc3580Dict, rfc3580Table, rfc3580Module⟩
noncomputable def rfc4072 : Entry := ⟨c!"rfc4072", rfc4072Dict, rfc4072Table, rfc4072Module⟩
noncomputable def rfc4372 : Entry := ⟨c!"rfc4372", rfc4372Dict, rfc4372Table, rfc4372Module⟩
noncomputable def rfc4603 : Entry := ⟨c!"rfc4603", rfc4603Dict, rfc4603Table, rfc4603Module⟩
noncomputable def rfc4675 : Entry := ⟨c!"rfc4675", rfc4675Dict, rfc4675Table, rfc4675Module⟩
noncomputable def rfc4818 : Entry := ⟨c!"rfc4818", rfc4818Dict, rfc4818Table, rfc4818Module⟩
noncomputable def rfc4849 : Entry := ⟨c!"rfc4849", rfc4849Dict, rfc4849Table, rfc4849Module⟩
noncomputable def rfc5090 : Entry := ⟨c!"rfc5090", rfc5090Dict, rfc5090Table, rfc5090Module⟩
noncomputable def rfc5176 : Entry := ⟨c!"rfc5176", rfc5176Dict, rfc5176Table, rfc5176Module⟩
noncomputable def rfc5607 : Entry := ⟨c!"rfc5607", rfc5607Dict, rfc5607Table, rfc5607Module⟩
noncomputable def rfc5904 : Entry := ⟨c!"rfc5904", rfc5904Dict, rfc5904Table, rfc5904Module⟩
noncomputable def rfc6519 : Entry := ⟨c!"rfc6519", rfc6519Dict, rfc6519Table, rfc6519Module⟩
noncomputable def rfc6572 : Entry := ⟨c!"rfc6572", rfc6572Dict, rfc6572Table, rfc6572Module⟩
noncomputable def rfc6677 : Entry := ⟨c!"rfc6677", rfc6677Dict, rfc6677Table, rfc6677Module⟩
noncomputable def rfc6911 : Entry := ⟨c!"rfc6911", rfc6911Dict, rfc6911Table, rfc6911Module⟩
noncomputable def rfc7055 : Entry := ⟨c!"rfc7055", rfc7055Dict, rfc7055Table, rfc7055Module⟩
noncomputable def rfc7155 : Entry := ⟨c!"rfc7155", rfc7155Dict, rfc7155Table, rfc7155Module⟩

/-- All of them, in the order of the generator. -/
noncomputable def entries : List Entry := [
  rfc2865, rfc2866, rfc2867, rfc2868, rfc2869, rfc3162, rfc3576, rfc3580,
  rfc4072, rfc4372, rfc4603, rfc4675, rfc4818, rfc4849, rfc5090, rfc5176,
  rfc5607, rfc5904, rfc6519, rfc6572, rfc6677, rfc6911, rfc7055, rfc7155]

end Radius.Gen.Shipped

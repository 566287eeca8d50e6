import Verif.Basic
/-! # `radius/src/core/tag.rs` -/
namespace Radius

/-- `UNUSED_TAG_VALUE` — radius/src/core/tag.rs:1. -/
def UNUSED_TAG_VALUE : UInt8 := 0x00

/-- `struct Tag` — radius/src/core/tag.rs:5-8. -/
structure Tag where
  value : UInt8
deriving Repr, DecidableEq

namespace Tag

/-- `Tag::new` — radius/src/core/tag.rs:11-13. -/
def new (value : UInt8) : Tag := { value }

/-- `Tag::new_unused` — radius/src/core/tag.rs:15-19. -/
def newUnused : Tag := { value := UNUSED_TAG_VALUE }

/-- `Tag::get_value` — radius/src/core/tag.rs:21-23. -/
def getValue (t : Tag) : UInt8 := t.value

/-- `Tag::is_zero` — radius/src/core/tag.rs:25-27. -/
def isZero (t : Tag) : Bool := t.value == UNUSED_TAG_VALUE

/-- `Tag::is_valid_value` — radius/src/core/tag.rs:29-31. -/
def isValidValue (t : Tag) : Bool := decide (1 ≤ t.value) && decide (t.value ≤ 0x1f)

end Tag
end Radius

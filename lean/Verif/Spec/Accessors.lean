import Verif.Model.Accessors
import Verif.Spec.Values
/-! # Specification: typed accessors

Only the argument and result types of the accessors are taken from the model. -/
namespace Radius.Spec

/-- The first byte of a text exists and is above 0x1f, i.e. cannot be mistaken for a tag. -/
def startsAboveTags (s : String) : Bool :=
  match textBytes s with
  | [] => false
  | c :: _ => decide (31 < c.toNat)

/-- The value `lookup_*` has to return for a value given to `add_*`; `none` where RFC 2868 tag ambiguity, the
reader's limits or emptiness mean that nothing is promised. -/
def readBack : (k : Kind) → k.Arg → Option k.Val
  | .string, (s : String) => some s
  | .taggedString, (some tag, s) =>
    if 1 ≤ tag.value.toNat ∧ tag.value.toNat ≤ 31 then some (s, some tag) else none
  | .taggedString, (none, s) => if startsAboveTags s then some (s, none) else none
  | .userPassword, (p : Bytes) => some (beforeZero p)
  | .tunnelPassword, (_, tag, p) =>
    if p.length ≤ 240 then some (beforeZero p, tag.getD ⟨0⟩) else none
  | .octets, (b : Bytes) => some b
  | .concatOctets, (b : Bytes) => if b = [] then none else some b
  | .fixedOctets _, (b : Bytes) => some b
  | .ipv4, (x : Ipv4Addr) => some x
  | .ipv4Prefix, (b : Bytes) => some b
  | .ipv6, (x : Ipv6Addr) => some x
  | .ipv6Prefix, (b : Bytes) => some b
  | .date, (d : DateTime) => some ({ secs := d.secs % 4294967296, nanos := 0 } : DateTime)
  | .integer, (v : UInt32) => some v
  | .taggedInteger, (tag, v) =>
    if (tag.getD ⟨0⟩).value.toNat ≤ 31 then some (v, tag.getD ⟨0⟩) else none
  | .valueInteger, (v : UInt32) => some v
  | .taggedValueInteger, (tag, v) =>
    if (tag.getD ⟨0⟩).value.toNat ≤ 31 then some (v, tag.getD ⟨0⟩) else none
  | .short, (v : UInt16) => some v

/-- When `add_*` has to succeed. -/
def addable (p : Packet) : (k : Kind) → k.Arg → Prop
  | .userPassword, (v : Bytes) => v.length ≤ 128 ∧ p.secret ≠ []
  | .tunnelPassword, _ => p.secret ≠ []
  | .fixedOctets n, (v : Bytes) => v.length = n
  | .ipv4Prefix, (v : Bytes) => v.length = 4
  | .ipv6Prefix, (v : Bytes) => v.length ≤ 16
  | _, _ => True

/-- `Collected f as r`: `r` is the list of the results of `f` if all succeed, and otherwise the first
failure. -/
inductive Collected {α : Type} (f : AVP → Out AVPError α) : List AVP → Out AVPError (List α) → Prop
  | all (as : List AVP) (vs : List α) (h : as.map f = vs.map .ok) : Collected f as (.ok vs)
  | failed (before : List AVP) (vs : List α) (a : AVP) (after : List AVP) (e : AVPError)
      (h : before.map f = vs.map .ok) (ha : f a = .err e) : Collected f (before ++ a :: after) (.err e)

end Radius.Spec

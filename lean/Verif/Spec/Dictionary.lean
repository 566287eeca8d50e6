import Verif.Model.Generator
/-! # Specification: the dictionary format and the accessor families -/
namespace Radius.Gen.Spec

/-- White space characters. -/
def White (c : Nat) : Prop :=
  c ∈ [9, 10, 11, 12, 13, 32, 0x85, 0xA0, 0x1680, 0x2000, 0x2001, 0x2002, 0x2003, 0x2004, 0x2005, 0x2006, 0x2007, 0x2008, 0x2009,
    0x200A, 0x2028, 0x2029, 0x202F, 0x205F, 0x3000]

/-- The lines of a text: each ends with a newline, with or without a carriage return, the last one possibly with the end of the
text. -/
inductive LinesOf : Str → List Str → Prop
  | done : LinesOf [] []
  | last (l : Str) : l ≠ [] → 10 ∉ l → LinesOf l [l]
  | lf (l rest : Str) (ls : List Str) : 10 ∉ l → (∀ m, l ≠ m ++ [13]) → LinesOf rest ls → LinesOf (l ++ 10 :: rest) (l :: ls)
  | crlf (l rest : Str) (ls : List Str) : 10 ∉ l → LinesOf rest ls → LinesOf (l ++ 13 :: 10 :: rest) (l :: ls)

/-- The fields of a line: words without white space, separated by gaps of white space. -/
inductive Fields : Str → List Str → Prop
  | last (w : Str) : (∀ c ∈ w, ¬ White c) → Fields w [w]
  | cons (w gap rest : Str) (fs : List Str) : (∀ c ∈ w, ¬ White c) → gap ≠ [] → (∀ c ∈ gap, White c) →
      (∀ c, rest.head? = some c → ¬ White c) → Fields rest fs → Fields (w ++ gap ++ rest) (w :: fs)

/-- The value of decimal digits. -/
def decimal : Str → Nat
  | [] => 0
  | d :: ds => (d - 48) * 10 ^ ds.length + decimal ds

/-- A nonempty list of decimal digits with value `n`. -/
def Digits (s : Str) (n : Nat) : Prop := s ≠ [] ∧ (∀ c ∈ s, 48 ≤ c ∧ c ≤ 57) ∧ decimal s = n

/-- A decimal number up to `max`, possibly with a plus sign. -/
def Number (max : Nat) (s : Str) (n : Nat) : Prop := (Digits s n ∨ ∃ ds, s = 43 :: ds ∧ Digits ds n) ∧ n ≤ max

/-- The pieces between the commas. -/
inductive Pieces : Str → List Str → Prop
  | last (w : Str) : 44 ∉ w → Pieces w [w]
  | cons (w rest : Str) (ps : List Str) : 44 ∉ w → Pieces rest ps → Pieces (w ++ 44 :: rest) (w :: ps)

/-- The encryption that an option stands for. -/
def encryptionOf (opt : Str) : Option EncryptionType :=
  if opt = c!"encrypt=1" then some .UserPassword
  else if opt = c!"encrypt=2" then some .TunnelPassword
  else none

/-- The options of an attribute line, from the fields after the type: those in the first of these fields; the last encryption
counts; unknown options are ignored. -/
structure OptionsOf (more : List Str) (encryption : Option EncryptionType) (concat tag : Bool) : Prop where
  pieces : ∃ ps, (more = [] ∧ ps = [] ∨ ∃ f rest, more = f :: rest ∧ Pieces f ps) ∧
    encryption = (ps.filterMap encryptionOf).getLast? ∧ (concat = true ↔ c!"concat" ∈ ps) ∧
    (tag = true ↔ c!"has_tag" ∈ ps)

/-- The value type written in an attribute line, with the length of fixed length octets. -/
inductive TypeOf : Str → Option EncryptionType → ValueType → Option Nat → Prop
  | string : TypeOf c!"string" none .String none
  | userPassword : TypeOf c!"string" (some .UserPassword) .UserPassword none
  | tunnelPassword : TypeOf c!"string" (some .TunnelPassword) .TunnelPassword none
  | octets (e) : TypeOf c!"octets" e .Octets none
  | fixed (e) (ds : Str) (n : Nat) : Digits ds n → n < 2 ^ 64 → TypeOf (c!"octets[" ++ ds ++ c!"]") e .Octets (some n)
  | ipaddr (e) : TypeOf c!"ipaddr" e .IpAddr none
  | ipv4prefix (e) : TypeOf c!"ipv4prefix" e .Ipv4Prefix none
  | ipv6addr (e) : TypeOf c!"ipv6addr" e .Ipv6Addr none
  | ipv6prefix (e) : TypeOf c!"ipv6prefix" e .Ipv6Prefix none
  | ifid (e) : TypeOf c!"ifid" e .IfId none
  | date (e) : TypeOf c!"date" e .Date none
  | integer (e) : TypeOf c!"integer" e .Integer none
  | short (e) : TypeOf c!"short" e .Short none
  | vsa (e) : TypeOf c!"vsa" e .VSA none

/-- A value with a comment directly behind it. -/
inductive Uncommented : Str → Str → Prop
  | plain (v : Str) : 35 ∉ v → Uncommented v v
  | comment (v : Str) (c : Nat) (rest : Str) : 35 ∉ v → Uncommented (v ++ 35 :: c :: rest) v

/-- The meaning of a line. -/
inductive Item where
  | attribute (a : RadiusAttribute)
  | value (attr : Str) (v : RadiusValue)

/-- How a line is read. -/
inductive Reads : Str → Option Item → Prop
  | blank : Reads [] none
  | comment (rest : Str) : Reads (35 :: rest) none
  | attribute (line name num typ : Str) (more : List Str) (n : Nat) (e : Option EncryptionType) (concat tag : Bool)
      (vt : ValueType) (fixed : Option Nat) :
      Fields line (c!"ATTRIBUTE" :: name :: num :: typ :: more) → Number 255 num n → OptionsOf more e concat tag →
      TypeOf typ e vt fixed → Reads line (some (.attribute ⟨name, UInt8.ofNat n, vt, fixed, concat, tag⟩))
  | value (line attr name item v : Str) (more : List Str) (n : Nat) :
      Fields line (c!"VALUE" :: attr :: name :: item :: more) → Uncommented item v → Number 65535 v n →
      Reads line (some (.value attr ⟨name, UInt16.ofNat n⟩))

/-- Lines and their meanings. -/
inductive ReadsAll : List Str → List (Option Item) → Prop
  | nil : ReadsAll [] []
  | cons {l ls i is} : Reads l i → ReadsAll ls is → ReadsAll (l :: ls) (i :: is)

/-- A type of the form `octets[..]` with decimal digits in the brackets; `nd` are the digits that are not ASCII. -/
def Bracketed (nd : Nat → Bool) (typ : Str) : Prop :=
  ∃ ds, typ = c!"octets[" ++ ds ++ c!"]" ∧ ds ≠ [] ∧ ∀ c ∈ ds, (48 ≤ c ∧ c ≤ 57) ∨ nd c = true

/-- How a line stops the parser: with an error message, or with a panic (`none`). -/
inductive Stops (nd : Nat → Bool) : Str → Option Str → Prop
  | fewFields (line : Str) (fs : List Str) : line ≠ [] → line.head? ≠ some 35 → Fields line fs → fs.length < 4 →
      Stops nd line (some c!"the number of items is lacked in a line")
  | kind (line kind i1 i2 i3 : Str) (more : List Str) : line ≠ [] → line.head? ≠ some 35 →
      Fields line (kind :: i1 :: i2 :: i3 :: more) → kind ≠ c!"ATTRIBUTE" → kind ≠ c!"VALUE" →
      Stops nd line (some (c!"unexpected kind has come => " ++ kind))
  | unknownType (line name num typ : Str) (more : List Str) : Fields line (c!"ATTRIBUTE" :: name :: num :: typ :: more) →
      (∀ e vt fixed, ¬ TypeOf typ e vt fixed) → ¬ Bracketed nd typ →
      Stops nd line (some (c!"invalid type has come => " ++ typ))
  | badLength (line name num typ : Str) (more : List Str) : Fields line (c!"ATTRIBUTE" :: name :: num :: typ :: more) →
      (∀ e vt fixed, ¬ TypeOf typ e vt fixed) → Bracketed nd typ → Stops nd line none
  | badNumber (line name num typ : Str) (more : List Str) (e : Option EncryptionType) (vt : ValueType) (fixed : Option Nat) :
      Fields line (c!"ATTRIBUTE" :: name :: num :: typ :: more) → TypeOf typ e vt fixed → (∀ n, ¬ Number 255 num n) →
      Stops nd line none
  | badValue (line attr name item : Str) (more : List Str) : Fields line (c!"VALUE" :: attr :: name :: item :: more) →
      (∀ v n, Uncommented item v → ¬ Number 65535 v n) → Stops nd line none

/-- The attributes among the meanings. -/
def attributesOf (is : List (Option Item)) : List RadiusAttribute :=
  is.filterMap (fun | some (.attribute a) => some a | _ => none)

/-- The values of an attribute among the meanings. -/
def valuesOf (name : Str) (is : List (Option Item)) : List RadiusValue :=
  is.filterMap (fun | some (.value attr v) => if attr = name then some v else none | _ => none)

/-- The entries with a key. -/
def entriesOf (name : Str) (m : ValueMap) : List (List RadiusValue) :=
  m.filterMap (fun e => if e.1 = name then some e.2 else none)

/-- The contents of a dictionary: attributes in order, the values of each attribute in order, attributes with values in the
order of their names. -/
structure Contents (is : List (Option Item)) (d : Dict) : Prop where
  attributes : d.attributes = attributesOf is
  values : ∀ name, entriesOf name d.values = if valuesOf name is = [] then [] else [valuesOf name is]
  sorted : (d.values.map (fun e => e.1)).Pairwise (fun a b => a < b)

/-- The combinations of type and tag that the generator supports. -/
def Supported (a : RadiusAttribute) : Prop :=
  (a.hasTag = true → a.valueType = .String ∨ a.valueType = .Integer ∨ a.valueType = .TunnelPassword ∨ a.valueType = .VSA) ∧
  (a.valueType = .TunnelPassword → a.hasTag = true)

/-- The accessor family for an attribute: `valued` says that the dictionary defines values for it. -/
inductive Family : RadiusAttribute → (valued : Bool) → Kind → Prop
  | string {a v} : a.valueType = .String → a.hasTag = false → Family a v .string
  | taggedString {a v} : a.valueType = .String → a.hasTag = true → Family a v .taggedString
  | userPassword {a v} : a.valueType = .UserPassword → Family a v .userPassword
  | tunnelPassword {a v} : a.valueType = .TunnelPassword → Family a v .tunnelPassword
  | octets {a v} : a.valueType = .Octets → a.fixedOctetsLength = none → a.concatOctets = false → Family a v .octets
  | concatOctets {a v} : a.valueType = .Octets → a.fixedOctetsLength = none → a.concatOctets = true → Family a v .concatOctets
  | fixedOctets {a v n} : a.valueType = .Octets → a.fixedOctetsLength = some n → Family a v (.fixedOctets n)
  | ifid {a v} : a.valueType = .IfId → Family a v (.fixedOctets 8)
  | ipv4 {a v} : a.valueType = .IpAddr → Family a v .ipv4
  | ipv4Prefix {a v} : a.valueType = .Ipv4Prefix → Family a v .ipv4Prefix
  | ipv6 {a v} : a.valueType = .Ipv6Addr → Family a v .ipv6
  | ipv6Prefix {a v} : a.valueType = .Ipv6Prefix → Family a v .ipv6Prefix
  | date {a v} : a.valueType = .Date → Family a v .date
  | integer {a} : a.valueType = .Integer → a.hasTag = false → Family a false .integer
  | taggedInteger {a} : a.valueType = .Integer → a.hasTag = true → Family a false .taggedInteger
  | valueInteger {a} : a.valueType = .Integer → a.hasTag = false → Family a true .valueInteger
  | taggedValueInteger {a} : a.valueType = .Integer → a.hasTag = true → Family a true .taggedValueInteger
  | short {a v} : a.valueType = .Short → Family a v .short
  | vsa {a v} : a.valueType = .VSA → Family a v .vsa

end Radius.Gen.Spec

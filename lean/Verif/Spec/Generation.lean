import Verif.Model.GeneratorMain
import Verif.Spec.Dictionary
/-! # Specification: the files the generator writes -/
namespace Radius.Gen.Spec

/-- The file name has a dot, not only at its start, and `ext` is what follows the last one. -/
def HasExtension (p : FilePath) (ext : Str) : Prop :=
  ∃ dir before, p = dir ++ [.normal (before ++ 46 :: ext)] ∧ before ≠ [] ∧ 46 ∉ ext

/-- A dictionary that is found and read: its extension, text and contents. -/
structure Source where
  rfcName : Str
  text : Str
  dict : Dict

/-- The path leads to this dictionary and its module can be created. -/
structure Source.At (nd : Nat → Bool) (w : World) (p : FilePath) (x : Source) : Prop where
  text : w.text p = some x.text
  extension : HasExtension p x.rfcName
  create : w.create (x.rfcName ++ c!".rs") = true
  dict : parseDict nd x.text = .ok x.dict

/-- The dictionary defines an attribute with this name. -/
def Source.defines (x : Source) (name : Str) : Bool := x.dict.attributes.any (fun a => decide (a.name = name))

/-- The module with the type of the attribute, seen from the dictionary after `earlier`: the last that defines it. -/
def origin (earlier : List Source) (name : Str) : Option Str :=
  (earlier.reverse.find? (fun x => x.defines name)).map (fun x => x.rfcName)

/-- The documentation and the imports at the top of a module, up to the imports of earlier modules. -/
def headerText (rfc : Str) (ls : List Str) : Str :=
  c!"// Code generated by machine generator; DO NOT EDIT.\n\n//! Utility for " ++ rfc ++
  c!" packet.\n//!\n//! This module handles the packet according to the following definition:\n//! ```text\n//! " ++
  List.intercalate c!"\n" (ls.map (fun l => c!"//! " ++ l)) ++
  c!"\n//! ```\n\nuse std::net::{Ipv4Addr, Ipv6Addr};\n\nuse chrono::{DateTime, Utc};\n\nuse crate::core::avp::{AVP, AVPType, AVPError};\nuse crate::core::packet::Packet;\nuse crate::core::tag::Tag;\n\n"

/-- The import of another module. -/
def useText (x : Source) : Str := c!"use crate::core::" ++ x.rfcName ++ c!";\n"

/-- The constant for a value; its type is in this module or in another. -/
def constantText (typeName : Str) (other : Option Str) (v : RadiusValue) : Str :=
  c!"pub const " ++ toScreamingSnakeCase typeName ++ c!"_" ++ toScreamingSnakeCase v.name ++ c!": " ++
  (match other with | some m => m ++ c!"::" | none => []) ++ typeName ++ c!" = " ++ digits v.value.toNat ++ c!";\n"

/-- The values of an attribute: the type is declared unless another module has it. -/
def valuesText (attr : Str) (vs : List RadiusValue) (other : Option Str) : Str :=
  (match other with | none => c!"\npub type " ++ toPascalCase attr ++ c!" = u32;\n" | some _ => []) ++
  vs.flatMap (constantText (toPascalCase attr) other) ++ c!"\n"

/-- The constant for an attribute type and the function that deletes the attribute. -/
def commonText (a : RadiusAttribute) : Str :=
  c!"\npub const " ++ toScreamingSnakeCase a.name ++ c!"_TYPE: AVPType = " ++ digits a.typ.toNat ++
  c!";\n/// Delete all of `" ++ toSnakeCase a.name ++ c!"` values from a packet.\npub fn delete_" ++ toSnakeCase a.name ++
  c!"(packet: &mut Packet) {\n    packet.delete(" ++ toScreamingSnakeCase a.name ++ c!"_TYPE);\n}\n"

/-- The codes of attributes. -/
inductive CodesOf (values : ValueMap) : List RadiusAttribute → List Str → Prop
  | nil : CodesOf values [] []
  | cons {a c as cs} : generateAttributeCode a values = .ok c → CodesOf values as cs → CodesOf values (a :: as) (c :: cs)

/-- The module for a dictionary, after earlier ones. -/
def ModuleText (earlier : List Source) (x : Source) (out : Str) : Prop :=
  ∃ ls codes, LinesOf x.text ls ∧ CodesOf x.dict.values x.dict.attributes codes ∧
    out = headerText x.rfcName ls ++ earlier.flatMap useText ++ codes.flatten ++
      x.dict.values.flatMap (fun e => valuesText e.1 e.2 (origin earlier e.1))

/-- What is left of the module for a dictionary with an unsupported attribute: everything up to the first such attribute,
with the constant and the delete function of that attribute. -/
def PartialText (earlier : List Source) (x : Source) (out : Str) : Prop :=
  ∃ ls good bad more codes, LinesOf x.text ls ∧ x.dict.attributes = good ++ bad :: more ∧ (∀ a ∈ good, Supported a) ∧
    ¬ Supported bad ∧ CodesOf x.dict.values good codes ∧
    out = headerText x.rfcName ls ++ earlier.flatMap useText ++ codes.flatten ++ commonText bad

/-- The modules for some dictionaries, after earlier ones. -/
inductive Modules : (earlier : List Source) → List Source → List (Str × Str) → Prop
  | nil (earlier) : Modules earlier [] []
  | cons (earlier) (x xs out files) : ModuleText earlier x out → Modules (earlier ++ [x]) xs files →
      Modules earlier (x :: xs) ((x.rfcName ++ c!".rs", out) :: files)

/-- The dictionaries at some paths. -/
inductive Sources (nd : Nat → Bool) (w : World) : List FilePath → List Source → Prop
  | nil : Sources nd w [] []
  | cons {p x ps xs} : Source.At nd w p x → Sources nd w ps xs → Sources nd w (p :: ps) (x :: xs)

/-- The place of a component in the order of paths: root, `.`, `..`, then names. -/
def placeOf : Component → List Nat
  | .rootDir => [0] | .curDir => [1] | .parentDir => [2] | .normal n => 3 :: n

/-- Paths in the order in which the generator handles them: component by component. -/
def InOrder (ps : List FilePath) : Prop := ps.Pairwise (fun p q => ¬ q.map placeOf < p.map placeOf)

end Radius.Gen.Spec

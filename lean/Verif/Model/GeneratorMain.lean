import Verif.Model.Generator
/-! # The program around the generator: arguments, order of the files, what is written — code-generator/src/main.rs:82-160

`getopts` is not modelled: the arguments are what it has found. A path is the list of its components, as `Path::cmp`
sees it. Every dictionary that exists can be read, twice with the same text, and is UTF-8. -/
namespace Radius.Gen

/-- `std::path::Component` (on Unix), in the order of `Ord`. -/
inductive Component where
  | rootDir | curDir | parentDir
  | normal (name : Str)
deriving DecidableEq

/-- `std::path::Path`. -/
abbrev FilePath := List Component

/-- Position of the variant in the derived `Ord`. -/
def Component.rank : Component → Nat
  | .rootDir => 0 | .curDir => 1 | .parentDir => 2 | .normal _ => 3

/-- `OsStr` is compared byte by byte; for UTF-8 this is the order of the code points. -/
def strLe : Str → Str → Bool
  | [], _ => true
  | _ :: _, [] => false
  | a :: as, b :: bs => if a < b then true else if b < a then false else strLe as bs

/-- `Component::cmp`. -/
def Component.le : Component → Component → Bool
  | .normal a, .normal b => strLe a b
  | a, b => Nat.ble a.rank b.rank

/-- `Path::cmp`: component by component. -/
def pathLe : FilePath → FilePath → Bool
  | [], _ => true
  | _ :: _, [] => false
  | a :: as, b :: bs => if a = b then pathLe as bs else a.le b

/-- `Path::file_name`. -/
def fileName (p : FilePath) : Option Str :=
  match p.getLast? with
  | some (.normal n) => some n
  | _ => none

/-- The last piece between dots and what is in front of its dot (`rsplitn(2, '.')`). -/
def rsplitDot (name : Str) : Option (Str × Str) :=
  match name.reverse.dropWhile (fun c => c != 46) with
  | [] => none
  | _ :: before => some (before.reverse, (name.reverse.takeWhile (fun c => c != 46)).reverse)

/-- `Path::extension`. -/
def extension (p : FilePath) : Option Str :=
  match fileName p with
  | none => none
  | some n =>
    match rsplitDot n with
    | none => none
    | some (before, after) => if before = [] then none else some after

/-- What `getopts` has found — code-generator/src/main.rs:101-126. -/
structure Args where
  help : Bool
  outDir : Option Str
  free : List FilePath

/-- What the program finds: the texts of the files, and whether a file can be created in the output directory. -/
structure World where
  text : FilePath → Option Str
  create : (name : Str) → Bool

/-- What the program has done: the files it created, in that order, with what was written into them, and whether it
panicked. A `BufWriter` is flushed when it is dropped, also by a panic. -/
structure Written where
  files : List (Str × Str)
  panicked : Bool

/-- `generate_attributes_code` with what is written before a panic: the constant of the attribute and its `delete_*`
function come before the `match` that panics — code-generator/src/main.rs:256-376. -/
noncomputable def writeAttributes (values : ValueMap) : List RadiusAttribute → Str × Bool
  | [] => ([], true)
  | attr :: rest =>
    let typeIdentifier := toScreamingSnakeCase attr.name ++ c!"_TYPE"
    let methodIdentifier := toSnakeCase attr.name
    let common := generateCommonAttributeCode methodIdentifier typeIdentifier (digits attr.typ.toNat)
    match dispatch attr (hasValues values attr.name) with
    | .ok kind =>
      let more := writeAttributes values rest
      (common ++ accessorCode attr.name methodIdentifier typeIdentifier kind ++ more.1, more.2)
    | _ => (common, false)

/-- The loop of `main` — code-generator/src/main.rs:134-159. -/
noncomputable def mainLoop (nd : Nat → Bool) (w : World) (s : MainState) : List FilePath → Written
  | [] => ⟨[], false⟩
  | p :: ps =>
    match w.text p with
    | none => ⟨[], true⟩
    | some text =>
      match parseDict nd text with
      | .ok d =>
        match extension p with
        | none => ⟨[], true⟩
        | some rfcName =>
          let name := rfcName ++ c!".rs"
          match w.create name with
          | false => ⟨[], true⟩
          | true =>
            let header := generateHeader s.rfcNames rfcName (readLines text)
            let attrs := writeAttributes d.values d.attributes
            match attrs.2 with
            | false => ⟨[(name, header ++ attrs.1)], true⟩
            | true =>
              let rest := mainLoop nd w
                { rfcNames := s.rfcNames ++ [rfcName],
                  names := (d.attributes.map (fun a => (a.name, rfcName))).reverse ++ s.names } ps
              ⟨(name, header ++ attrs.1 ++ generateValuesCode d.values s.names) :: rest.files, rest.panicked⟩
      | _ => ⟨[], true⟩

/-- `main` — code-generator/src/main.rs:97-160; `print_usage` (lines 82-86) prints and exits. `sort` is a stable sort. -/
noncomputable def main (nd : Nat → Bool) (w : World) (a : Args) : Written :=
  if a.help then ⟨[], false⟩
  else
    match a.outDir with
    | none => ⟨[], true⟩
    | some _ =>
      if a.free.all (fun p => (w.text p).isSome) then mainLoop nd w {} (a.free.mergeSort pathLe)
      else ⟨[], true⟩

end Radius.Gen

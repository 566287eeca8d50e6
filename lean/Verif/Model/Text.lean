import Lean
/-! # Text of the code generator

The generator works on text, and its theorems are checked by letting the kernel evaluate it on the shipped files. Text is
therefore a list of code points, and the notation `c!"text"` is the explicit list of the code points of a literal. -/
namespace Radius.Gen

/-- `String` / `&str`: a list of code points. -/
abbrev Str := List Nat

open Lean in
/-- `c!"text"` is the explicit list of the code points of the literal. -/
elab:max "c!" s:str : term => do
  let nat := Lean.mkConst ``Nat
  let cons := mkApp (Lean.mkConst ``List.cons [.zero]) nat
  return s.getString.toList.foldr (fun c acc => mkApp2 cons (mkRawNatLit c.toNat) acc)
    (mkApp (Lean.mkConst ``List.nil [.zero]) nat)

example : c!"a{\n" = [97, 123, 10] := rfl

/-- Equality of texts. -/
def strEq : Str → Str → Bool
  | [], [] => true
  | a :: as, b :: bs => bif Nat.beq a b then strEq as bs else false
  | _, _ => false

/-- `a ≤ c ≤ b`. -/
def inRange (a b c : Nat) : Bool := Nat.ble a c && Nat.ble c b

/-- ASCII decimal digit. -/
def isDigit (c : Nat) : Bool := inRange 48 57 c

def isLower (c : Nat) : Bool := inRange 97 122 c

def isUpper (c : Nat) : Bool := inRange 65 90 c

/-- `char::to_ascii_lowercase`. -/
def toLower (c : Nat) : Nat := bif isUpper c then c + 32 else c

/-- `char::to_ascii_uppercase`. -/
def toUpper (c : Nat) : Nat := bif isLower c then c - 32 else c

/-- The Unicode property `White_Space`: the class `\s` of the regex crate. -/
def isSpace (c : Nat) : Bool :=
  bif Nat.ble 33 c then
    bif Nat.ble c 126 then false
    else Nat.beq c 0x85 || Nat.beq c 0xA0 || Nat.beq c 0x1680 || inRange 0x2000 0x200A c || Nat.beq c 0x2028 ||
      Nat.beq c 0x2029 || Nat.beq c 0x202F || Nat.beq c 0x205F || Nat.beq c 0x3000
  else Nat.beq c 32 || inRange 9 13 c

/-- Display of an unsigned integer. -/
def digits (n : Nat) : Str := if n < 10 then [48 + n] else digits (n / 10) ++ [48 + n % 10]

/-- `str::parse` for an unsigned integer type with largest value `max`: an optional `+`, then decimal digits. -/
def parseUnsigned (max : Nat) (s : Str) : Option Nat :=
  let ds := match s with
    | 43 :: rest => rest
    | _ => s
  if ds.isEmpty then none
  else if ds.all isDigit then
    let n := ds.foldl (fun n d => n * 10 + (d - 48)) 0
    if n ≤ max then some n else none
  else none

/-- The lines of a text, each followed by a newline. -/
def unlines : List Str → Str
  | [] => []
  | l :: ls => l ++ 10 :: unlines ls

end Radius.Gen

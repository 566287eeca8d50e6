import Verif.Model.Text
/-! # The parts of crate `Inflector` that the generator uses

The source of the crate is not part of the repository; these definitions follow its published source (version 0.11) for
ASCII text. That the result for the names in the shipped dictionaries is right is checked by C50, which compares with
the identifiers in the shipped modules. -/
namespace Radius.Gen

/-- `char::is_alphanumeric` (ASCII). -/
def isAlnum (c : Nat) : Bool := isLower c || isUpper c || isDigit c

/-- `trim_right`: drop separators at the end. -/
def trimRight (s : Str) : Str := (s.reverse.dropWhile (fun c => !isAlnum c)).reverse

/-- `to_case_snake_like` with `_`: `prev` is the character before the rest of the (untrimmed) string, `first` is
`first_character`, `case` the ASCII case conversion. A separator is put before an upper case character (digits count as
upper case) next to a lower case one. The number of characters to convert is `n`. -/
def snakeLike (case : Nat → Nat) : Nat → Nat → Bool → Str → Str
  | 0, _, _, _ => []
  | _, _, _, [] => []
  | n + 1, prev, first, c :: cs =>
    bif !isAlnum c then
      bif first then snakeLike case n c first cs else 95 :: snakeLike case n c true cs
    else bif !first && !isLower c && ((match cs with | [] => false | d :: _ => isLower d) || isLower prev) then
      95 :: case c :: snakeLike case n c false cs
    else case c :: snakeLike case n c false cs

/-- `to_snake_case`. -/
def toSnakeCase (s : Str) : Str := snakeLike toLower (trimRight s).length 65 true s

/-- `to_screaming_snake_case`. -/
def toScreamingSnakeCase (s : Str) : Str := snakeLike toUpper (trimRight s).length 65 true s

/-- `to_case_camel_like` with the options of `to_pascal_case`. -/
def pascalLike : (newWord : Bool) → (last : Nat) → (found : Bool) → Str → Str
  | _, _, _, [] => []
  | newWord, last, found, c :: cs =>
    bif !isAlnum c then
      bif found then pascalLike true last found cs else pascalLike newWord last found cs
    else bif isDigit c then c :: pascalLike true last true cs
    else bif newWord || (isLower last && isUpper c) then toUpper c :: pascalLike false last true cs
    else toLower c :: pascalLike newWord c true cs

/-- `to_pascal_case`. -/
def toPascalCase (s : Str) : Str := pascalLike true 32 false (trimRight s)

example : toSnakeCase c!"Framed-AppleTalk-Link" = c!"framed_apple_talk_link" := by decide +kernel
example : toScreamingSnakeCase c!"X.75-Synchronous" = c!"X_75_SYNCHRONOUS" := by decide +kernel
example : toPascalCase c!"Login-TCP-Port" = c!"LoginTCPPort" := by decide +kernel

end Radius.Gen

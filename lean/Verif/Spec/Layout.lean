import Verif.Model.Text
/-! # Specification: Rust source text up to layout

Two source texts are compared by their tokens: words, string literals, line comments (without white space at the end) and single
other characters. `use` declarations and commas before a closing bracket are left out: `cargo fix` removes unused imports,
`cargo fmt` adds and removes trailing commas. -/
namespace Radius.Gen.Spec

/-- Letters, digits and `_`. -/
def isWord (c : Nat) : Bool := 
  bif Nat.ble 97 c then Nat.ble c 122
  else bif Nat.ble 65 c then Nat.ble c 90 || Nat.beq c 95
  else Nat.ble 48 c && Nat.ble c 57

/-- What the lexer is reading; the text of the token so far, reversed. -/
inductive Mode where
  | word (cur : Str)
  | quote (cur : Str)
  | escape (cur : Str)

/-- End a word. -/
def flush (cur : Str) (rest : List Str) : List Str :=
  match cur with
  | [] => rest
  | c :: cs => (c :: cs).reverse :: rest

/-- The rest of the line is a comment: the next two characters are slashes. -/
def startsComment (c : Nat) : Str → Bool
  | [] => false
  | d :: _ => Nat.beq c 47 && Nat.beq d 47

/-- Drop white space at the end. -/
def trimEnd (s : Str) : Str := (s.reverse.dropWhile isSpace).reverse

/-- The tokens of a line. -/
def lexLine : Str → Mode → List Str
  | [], .word cur => flush cur []
  | [], .quote cur => [cur.reverse]
  | [], .escape cur => [cur.reverse]
  | c :: cs, .word cur =>
    bif isWord c then lexLine cs (.word (c :: cur))
    else bif isSpace c then flush cur (lexLine cs (.word []))
    else bif startsComment c cs then flush cur [trimEnd (c :: cs)]
    else bif Nat.beq c 34 then flush cur (lexLine cs (.quote [34]))
    else flush cur ([c] :: lexLine cs (.word []))
  | c :: cs, .quote cur =>
    bif Nat.beq c 92 then lexLine cs (.escape (c :: cur))
    else bif Nat.beq c 34 then (c :: cur).reverse :: lexLine cs (.word [])
    else lexLine cs (.quote (c :: cur))
  | c :: cs, .escape cur => lexLine cs (.quote (c :: cur))

/-- The lines of a text. -/
def splitLines : Str → (cur : Str) → List Str
  | [], cur => [cur.reverse]
  | c :: cs, cur => bif Nat.beq c 10 then cur.reverse :: splitLines cs [] else splitLines cs (c :: cur)

/-- The tokens of lines. -/
def tokens (ls : List Str) : List Str := ls.flatMap (fun l => lexLine l (.word []))

/-- Leave out `use .. ;`. -/
def dropUses : List Str → (inUse : Bool) → List Str
  | [], _ => []
  | t :: ts, true => bif strEq t c!";" then dropUses ts false else dropUses ts true
  | t :: ts, false => bif strEq t c!"use" then dropUses ts true else t :: dropUses ts false

/-- A closing bracket. -/
def isClosing (t : Str) : Bool := strEq t c!")" || strEq t c!"]" || strEq t c!"}"

/-- Leave out commas before a closing bracket. -/
def dropCommas : List Str → List Str
  | [] => []
  | [t] => [t]
  | t :: u :: ts => bif strEq t c!"," && isClosing u then dropCommas (u :: ts) else t :: dropCommas (u :: ts)

/-- The tokens that matter, for lines. -/
def significantLines (ls : List Str) : List Str := dropCommas (dropUses (tokens ls) false)

/-- The tokens that matter. -/
def significant (s : Str) : List Str := significantLines (splitLines s [])

example : significant c!"use a::{b, c};\nfn f(\n    x: u8,\n) { g(\"a b\") } // done  " =
    [c!"fn", c!"f", c!"(", c!"x", c!":", c!"u8", c!")", c!"{", c!"g", c!"(", c!"\"a b\"", c!")", c!"}", c!"// done"] := by
  decide +kernel

end Radius.Gen.Spec

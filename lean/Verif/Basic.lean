/-!
# Common vocabulary of the model

Primitives of Rust that the modelled code uses: byte strings, the three possible outcomes of a call
(value, `Err`, panic), indexing and slicing that panic out of range, narrow arithmetic with and without
overflow checks, big-endian conversions, `chunks`, `split`.
-/

namespace Radius

/-- `Vec<u8>` / `&[u8]`. -/
abbrev Bytes := List UInt8

/-- The outcome of running a Rust function: a value, an `Err(e)`, or a panic. -/
inductive Out (ε α : Type) where
  | ok (a : α)
  | err (e : ε)
  | panic
deriving Repr, DecidableEq

namespace Out

/-- `?` / sequencing: errors and panics propagate. -/
def bind {ε α β : Type} : Out ε α → (α → Out ε β) → Out ε β
  | ok a, f => f a
  | err e, _ => err e
  | panic, _ => panic

instance {ε : Type} : Monad (Out ε) where
  pure := ok
  bind := bind

/-- `match r { Ok(v) => .., Err(e) => return Err(F(e)) }`. -/
def mapErr {ε ε' α : Type} (f : ε → ε') : Out ε α → Out ε' α
  | ok a => ok a
  | err e => err (f e)
  | panic => panic

@[simp] theorem pure_eq {ε α : Type} (a : α) : (pure a : Out ε α) = ok a := rfl
@[simp] theorem bind_ok {ε α β : Type} (a : α) (f : α → Out ε β) : (ok a >>= f) = f a := rfl
@[simp] theorem bind_err {ε α β : Type} (e : ε) (f : α → Out ε β) : (err e >>= f) = err e := rfl
@[simp] theorem bind_panic {ε α β : Type} (f : α → Out ε β) : ((panic : Out ε α) >>= f) = panic := rfl
@[simp] theorem mapErr_ok {ε ε' α : Type} (f : ε → ε') (a : α) : mapErr f (ok a) = ok a := rfl
@[simp] theorem mapErr_err {ε ε' α : Type} (f : ε → ε') (e : ε) :
    mapErr f (err e : Out ε α) = err (f e) := rfl
@[simp] theorem mapErr_panic {ε ε' α : Type} (f : ε → ε') :
    mapErr f (panic : Out ε α) = panic := rfl

end Out

/-- `bs[i]`: panics out of range. -/
def idx {ε : Type} (bs : Bytes) (i : Nat) : Out ε UInt8 :=
  match bs[i]? with
  | some b => .ok b
  | none => .panic

/-- `bs[a..b]`: panics unless `a ≤ b ≤ len`. -/
def slice {ε : Type} (bs : Bytes) (a b : Nat) : Out ε Bytes :=
  if a ≤ b ∧ b ≤ bs.length then .ok ((bs.drop a).take (b - a)) else .panic

/-- `bs[a..]`. -/
def sliceFrom {ε : Type} (bs : Bytes) (a : Nat) : Out ε Bytes := slice bs a bs.length

/-- `bs.splice(a..b, new)` (iterator dropped): panics unless `a ≤ b ≤ len`. -/
def splice {ε : Type} (bs : Bytes) (a b : Nat) (new : Bytes) : Out ε Bytes :=
  if a ≤ b ∧ b ≤ bs.length then .ok (bs.take a ++ new ++ bs.drop b) else .panic

/-- `a + b` on `u8`; `ck` says whether the build has overflow checks (debug) or wraps (release). -/
def addU8 {ε : Type} (ck : Bool) (a b : UInt8) : Out ε UInt8 :=
  if a.toNat + b.toNat < 256 then .ok (a + b) else if ck then .panic else .ok (a + b)

/-- `a + b` on `u16`; see `addU8`. -/
def addU16 {ε : Type} (ck : Bool) (a b : UInt16) : Out ε UInt16 :=
  if a.toNat + b.toNat < 65536 then .ok (a + b) else if ck then .panic else .ok (a + b)

/-- `u16::to_be_bytes`. -/
def u16ToBe (n : UInt16) : Bytes := [UInt8.ofNat (n.toNat / 256), UInt8.ofNat n.toNat]

/-- `u16::from_be_bytes` on the two bytes of an array. -/
def u16FromBe (a b : UInt8) : UInt16 := UInt16.ofNat (a.toNat * 256 + b.toNat)

/-- `u32::to_be_bytes` (also `i32::to_be_bytes` on the two's complement representation). -/
def u32ToBe (n : UInt32) : Bytes :=
  [UInt8.ofNat (n.toNat / 16777216), UInt8.ofNat (n.toNat / 65536),
   UInt8.ofNat (n.toNat / 256), UInt8.ofNat n.toNat]

/-- `u32::from_be_bytes`. -/
def u32FromBe (a b c d : UInt8) : UInt32 :=
  UInt32.ofNat (a.toNat * 16777216 + b.toNat * 65536 + c.toNat * 256 + d.toNat)

/-- `slice.chunks(m + 1)`: consecutive pieces of `m + 1` elements, the last one possibly shorter. -/
def chunks {α : Type} (m : Nat) : List α → List (List α)
  | [] => []
  | x :: xs => (x :: xs.take m) :: chunks m (xs.drop m)
termination_by l => l.length
decreasing_by simp only [List.length_drop, List.length_cons]; omega

/-- `slice.split(pred)`: the pieces between elements satisfying `p` (always at least one piece). -/
def splitOn {α : Type} (p : α → Bool) : List α → List (List α)
  | [] => [[]]
  | x :: xs =>
    if p x then [] :: splitOn p xs
    else match splitOn p xs with
      | [] => [[x]]
      | h :: t => (x :: h) :: t

/-- A 16-byte message digest. -/
abbrev Digest := { b : Bytes // b.length = 16 }

/-- The digest of the `md5` build (`md5::compute`): total. All theorems hold for every such function. -/
abbrev Hash := Bytes → Digest

/-- `xs.iter().zip(ys).map(|(d, p)| d ^ p).collect()`. -/
def xorBytes (xs ys : Bytes) : Bytes := List.zipWith (· ^^^ ·) xs ys

end Radius

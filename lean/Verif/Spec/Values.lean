import Verif.Basic
/-! # Specification: attribute value formats

Big-endian numbers, UTF-8 (RFC 3629) and the RFC 2865 / RFC 2868 block chaining, written without
reference to the model. -/
namespace Radius.Spec

/-- The number written by bytes in network order. -/
def beNat (bs : Bytes) : Nat := bs.foldl (fun acc b => acc * 256 + b.toNat) 0

/-- UTF-8 of a Unicode scalar value (RFC 3629 section 3). -/
def utf8 (c : Char) : Bytes :=
  let v := c.toNat
  if v < 0x80 then [UInt8.ofNat v]
  else if v < 0x800 then [UInt8.ofNat (0xc0 + v / 64), UInt8.ofNat (0x80 + v % 64)]
  else if v < 0x10000 then
    [UInt8.ofNat (0xe0 + v / 4096), UInt8.ofNat (0x80 + v / 64 % 64), UInt8.ofNat (0x80 + v % 64)]
  else [UInt8.ofNat (0xf0 + v / 262144), UInt8.ofNat (0x80 + v / 4096 % 64),
    UInt8.ofNat (0x80 + v / 64 % 64), UInt8.ofNat (0x80 + v % 64)]

/-- UTF-8 of a text. -/
def textBytes (s : String) : Bytes := s.toList.flatMap utf8

/-- Being the UTF-8 of some sequence of scalar values. -/
def ValidUtf8 (bs : Bytes) : Prop := ∃ cs : List Char, bs = cs.flatMap utf8

/-- The `i`-th 16-byte block. -/
def block (bs : Bytes) (i : Nat) : Bytes := (bs.drop (16 * i)).take 16

/-- Number of 16-byte blocks of a hidden password of `n` bytes: at least one. -/
def blockCount (n : Nat) : Nat := max 1 ((n + 15) / 16)

/-- `Hidden H secret iv p c`: `c` is `p` padded with zero bytes to `blockCount` blocks and hidden by
block chaining: `c_i = p_i xor H(secret + c_(i-1))`, with `c_(-1)` being the initial value `iv`
(RFC 2865 section 5.2, RFC 2868 section 3.5). -/
def Hidden (H : Bytes → Digest) (secret iv p c : Bytes) : Prop :=
  c.length = 16 * blockCount p.length ∧
  ∀ i, i < blockCount p.length → ∀ j, j < 16 →
    (block c i).getD j 0 =
      ((block p i).getD j 0) ^^^ ((H (secret ++ if i = 0 then iv else block c (i - 1))).val.getD j 0)

/-- `Revealed H secret iv c d`: `d` is `c` with the same chaining undone, byte by byte. -/
def Revealed (H : Bytes → Digest) (secret iv c d : Bytes) : Prop :=
  d.length = c.length ∧
  ∀ k, k < c.length → d.getD k 0 =
    c.getD k 0 ^^^ ((H (secret ++ if k < 16 then iv else block c (k / 16 - 1))).val.getD (k % 16) 0)

/-- The bytes before the first zero byte. -/
def beforeZero (bs : Bytes) : Bytes := bs.takeWhile (fun b => b != 0)

end Radius.Spec

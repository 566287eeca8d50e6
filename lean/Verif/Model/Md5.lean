import Verif.Basic
/-!
# MD5 (RFC 1321)

A concrete digest function, standing for crate `md5` (`compute`) in the non-vacuity examples and in the
replays of the repository's test vectors. No theorem about all digests uses it. Words are `Nat`s below 2^32.
-/
namespace Radius.Md5

/-- RFC 1321 section 3.4, table T. -/
def K : List Nat := [
   0xd76aa478, 0xe8c7b756, 0x242070db, 0xc1bdceee, 0xf57c0faf, 0x4787c62a, 0xa8304613, 0xfd469501,
   0x698098d8, 0x8b44f7af, 0xffff5bb1, 0x895cd7be, 0x6b901122, 0xfd987193, 0xa679438e, 0x49b40821,
   0xf61e2562, 0xc040b340, 0x265e5a51, 0xe9b6c7aa, 0xd62f105d, 0x02441453, 0xd8a1e681, 0xe7d3fbc8,
   0x21e1cde6, 0xc33707d6, 0xf4d50d87, 0x455a14ed, 0xa9e3e905, 0xfcefa3f8, 0x676f02d9, 0x8d2a4c8a,
   0xfffa3942, 0x8771f681, 0x6d9d6122, 0xfde5380c, 0xa4beea44, 0x4bdecfa9, 0xf6bb4b60, 0xbebfbc70,
   0x289b7ec6, 0xeaa127fa, 0xd4ef3085, 0x04881d05, 0xd9d4d039, 0xe6db99e5, 0x1fa27cf8, 0xc4ac5665,
   0xf4292244, 0x432aff97, 0xab9423a7, 0xfc93a039, 0x655b59c3, 0x8f0ccc92, 0xffeff47d, 0x85845dd1,
   0x6fa87e4f, 0xfe2ce6e0, 0xa3014314, 0x4e0811a1, 0xf7537e82, 0xbd3af235, 0x2ad7d2bb, 0xeb86d391]

/-- RFC 1321 section 3.4, rotation amounts. -/
def S : List Nat := [
   7, 12, 17, 22, 7, 12, 17, 22, 7, 12, 17, 22, 7, 12, 17, 22, 5, 9, 14, 20, 5, 9, 14, 20, 5, 9,
   14, 20, 5, 9, 14, 20, 4, 11, 16, 23, 4, 11, 16, 23, 4, 11, 16, 23, 4, 11, 16, 23, 6, 10, 15, 21,
   6, 10, 15, 21, 6, 10, 15, 21, 6, 10, 15, 21]

/-- `k n`, with `n` evaluated first (only matters for speed in the kernel). -/
def force {α : Type} (n : Nat) (k : Nat → α) : α :=
  match n with
  | 0 => k 0
  | n + 1 => k (n + 1)

/-- Word complement. -/
def not32 (x : Nat) : Nat := 0xffffffff - x

/-- Rotation to the left. -/
def rotl (x s : Nat) : Nat := ((x <<< s) ||| (x >>> (32 - s))) % 4294967296

/-- Little-endian bytes of a word. -/
def le4 (x : Nat) : Bytes :=
  [UInt8.ofNat x, UInt8.ofNat (x >>> 8), UInt8.ofNat (x >>> 16), UInt8.ofNat (x >>> 24)]

/-- Little-endian words of a byte string (16 of them in a block). -/
def words : Bytes → List Nat
  | a :: b :: c :: d :: rest =>
    force (a.toNat + b.toNat * 256 + c.toNat * 65536 + d.toNat * 16777216) fun w => w :: words rest
  | _ => []

/-- Round function and message index of step `i`. -/
def step (i : Nat) (b c d : Nat) : Nat × Nat :=
  if i < 16 then ((b &&& c) ||| (not32 b &&& d), i)
  else if i < 32 then ((d &&& b) ||| (not32 d &&& c), (5 * i + 1) % 16)
  else if i < 48 then (b ^^^ c ^^^ d, (3 * i + 5) % 16)
  else (c ^^^ (b ||| not32 d), (7 * i) % 16)

/-- Steps `i`, `i+1`, ... driven by the tables. -/
def rounds (m : List Nat) : List Nat → List Nat → Nat → Nat → Nat → Nat → Nat → Nat × Nat × Nat × Nat
  | k :: ks, s :: ss, i, a, b, c, d =>
    let fg := step i b c d
    force ((fg.1 + a + k + m.getD fg.2 0) % 4294967296) fun f =>
    force ((b + rotl f s) % 4294967296) fun b' =>
    rounds m ks ss (i + 1) d b' b c
  | _, _, _, a, b, c, d => (a, b, c, d)

/-- All blocks. -/
def blocks : List Bytes → Nat → Nat → Nat → Nat → Nat × Nat × Nat × Nat
  | [], a, b, c, d => (a, b, c, d)
  | blk :: rest, a, b, c, d =>
    let r := rounds (words blk) K S 0 a b c d
    force ((a + r.1) % 4294967296) fun a =>
    force ((b + r.2.1) % 4294967296) fun b =>
    force ((c + r.2.2.1) % 4294967296) fun c =>
    force ((d + r.2.2.2) % 4294967296) fun d =>
    blocks rest a b c d

/-- RFC 1321 sections 3.1-3.2: padding. -/
def pad (bs : Bytes) : Bytes :=
  let n := bs.length
  bs ++ ([0x80] : Bytes) ++ (List.replicate ((119 - n % 64) % 64) 0 : Bytes) ++ le4 (n * 8) ++ le4 ((n * 8) >>> 32)

/-- MD5. -/
def md5 (bs : Bytes) : Digest :=
  let r := blocks (chunks 63 (pad bs)) 0x67452301 0xefcdab89 0x98badcfe 0x10325476
  ⟨le4 r.1 ++ le4 r.2.1 ++ le4 r.2.2.1 ++ le4 r.2.2.2, rfl⟩

/-- RFC 1321 appendix A.5. -/
example : (md5 []).val = [0xd4, 0x1d, 0x8c, 0xd9, 0x8f, 0x00, 0xb2, 0x04, 0xe9, 0x80, 0x09, 0x98,
    0xec, 0xf8, 0x42, 0x7e] := by decide +kernel

/-- RFC 1321 appendix A.5 ("abc"). -/
example : (md5 [0x61, 0x62, 0x63]).val = [0x90, 0x01, 0x50, 0x98, 0x3c, 0xd2, 0x4f, 0xb0, 0xd6, 0x96,
    0x3f, 0x7d, 0x28, 0xe1, 0x7f, 0x72] := by decide +kernel

/-- RFC 1321 appendix A.5 (80 digits: two blocks). -/
example : (md5 ((List.replicate 8 [0x31, 0x32, 0x33, 0x34, 0x35, 0x36, 0x37, 0x38, 0x39, 0x30]).flatten)).val
    = [0x57, 0xed, 0xf4, 0xa2, 0x2b, 0xe3, 0xc9, 0x55, 0xac, 0x49, 0xda, 0x2e, 0x21, 0x07, 0xb6, 0x7a] := by
  decide +kernel

end Radius.Md5

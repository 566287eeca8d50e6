import Verif.Model.Avp
/-! # `std::net::SocketAddr` and its `Display`

The server keys its in-flight requests by `remote_addr.to_string()` (radius/src/server.rs:202), so the text of an
address is part of its behaviour. Modelled after `core::net` of the Rust standard library; texts are built
as character lists. -/
namespace Radius

/-- `std::net::SocketAddr`. -/
inductive SocketAddr where
  | v4 (ip : Ipv4Addr) (port : UInt16)
  | v6 (ip : Ipv6Addr) (port : UInt16) (flowinfo scopeId : UInt32)
deriving DecidableEq

/-- `SocketAddr::is_ipv4`. -/
def SocketAddr.isIpv4 : SocketAddr → Bool
  | .v4 .. => true
  | .v6 .. => false

/-- `{}` of an unsigned number. -/
def fmtDec (n : Nat) : List Char := Nat.toDigits 10 n

/-- `{:x}` of an unsigned number. -/
def fmtHex (n : Nat) : List Char := Nat.toDigits 16 n

/-- `Display` of `Ipv4Addr`. -/
def Ipv4Addr.display (x : Ipv4Addr) : List Char :=
  fmtDec x.a.toNat ++ '.' :: fmtDec x.b.toNat ++ '.' :: fmtDec x.c.toNat ++ '.' :: fmtDec x.d.toNat

/-- Pairs of octets as big-endian segments. -/
def segmentsOf : Bytes → List Nat
  | a :: b :: rest => (a.toNat * 256 + b.toNat) :: segmentsOf rest
  | _ => []

/-- `Ipv6Addr::segments`. -/
def Ipv6Addr.segments (x : Ipv6Addr) : List Nat := segmentsOf x.octets

/-- The scan for the longest run of zero segments in `Display` of `Ipv6Addr`: `i` is the index, `cur` and
`longest` are `(start, len)`. -/
def longestZeros : List Nat → Nat → Nat × Nat → Nat × Nat → Nat × Nat
  | [], _, _, longest => longest
  | seg :: segs, i, cur, longest =>
    if seg = 0 then
      let cur := if cur.2 = 0 then (i, cur.2) else cur
      let cur := (cur.1, cur.2 + 1)
      let longest := if cur.2 > longest.2 then cur else longest
      longestZeros segs (i + 1) cur longest
    else longestZeros segs (i + 1) (0, 0) longest

/-- `fmt_subslice`: hexadecimal segments separated by colons. -/
def fmtSegments : List Nat → List Char
  | [] => []
  | [s] => fmtHex s
  | s :: segs => fmtHex s ++ ':' :: fmtSegments segs

/-- `Display` of `Ipv6Addr`: IPv4-mapped addresses specially, otherwise the longest run of at least two
zero segments is replaced by `::`. -/
def Ipv6Addr.display (x : Ipv6Addr) : List Char :=
  match x.octets with
  | [0, 0, 0, 0, 0, 0, 0, 0, 0, 0, 0xff, 0xff, a, b, c, d] =>
    "::ffff:".toList ++ Ipv4Addr.display ⟨a, b, c, d⟩
  | _ =>
    let segments := x.segments
    let zeroes := longestZeros segments 0 (0, 0) (0, 0)
    if zeroes.2 > 1 then
      fmtSegments (segments.take zeroes.1) ++ "::".toList ++ fmtSegments (segments.drop (zeroes.1 + zeroes.2))
    else fmtSegments segments

/-- `Display` of `SocketAddr`. The flow information is not printed. -/
def SocketAddr.displayChars : SocketAddr → List Char
  | .v4 ip port => ip.display ++ ':' :: fmtDec port.toNat
  | .v6 ip port _ scopeId =>
    if scopeId.toNat = 0 then '[' :: ip.display ++ "]:".toList ++ fmtDec port.toNat
    else '[' :: ip.display ++ '%' :: fmtDec scopeId.toNat ++ "]:".toList ++ fmtDec port.toNat

/-- `SocketAddr::to_string`. -/
def SocketAddr.display (x : SocketAddr) : String := String.ofList x.displayChars

end Radius

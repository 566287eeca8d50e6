import Verif.Model.OpenSsl
/-! # Specification: two builds that differ in the digest implementation -/
namespace Radius.Spec

/-- `F` computes the same digests as `H` whenever it computes one. -/
def SameDigests (F : FHash) (H : Hash) : Prop := ∀ data d, F data = .ok d → d = H data

/-- The result `y` of the openssl build compared to the result `x` of the md5 build: the same, or the report of a failure of
the digest. -/
inductive SameOrReported {ε α : Type} (F : FHash) (report : String → ε) (x y : Out ε α) : Prop
  | same : y = x → SameOrReported F report x y
  | reported (data : Bytes) (m : String) : F data = .error m → y = .err (report m) → SameOrReported F report x y

/-- The same for the functions that return a `bool`: a failure of the digest is a panic. -/
inductive SameOrPanic (F : FHash) (x y : Out Empty Bool) : Prop
  | same : y = x → SameOrPanic F x y
  | panic (data : Bytes) (m : String) : F data = .error m → y = .panic → SameOrPanic F x y

end Radius.Spec

import Verif.Model.Accessors
import Verif.Model.Client
/-! # The example programs: `examples/client.rs`, `examples/server.rs`, `e2e-test/src/test.rs` -/
namespace Radius.Example

/-- `USER_NAME_TYPE` — radius/src/core/rfc2865.rs:155. -/
def USER_NAME_TYPE : AVPType := 1
/-- `USER_PASSWORD_TYPE` — radius/src/core/rfc2865.rs:179. -/
def USER_PASSWORD_TYPE : AVPType := 2

/-- `b"secret"` — examples/client.rs:16, examples/server.rs:76. -/
def SECRET : Bytes := [0x73, 0x65, 0x63, 0x72, 0x65, 0x74]

/-- Building the request — examples/client.rs:16-18 (and e2e-test/src/test.rs:107-109), for arbitrary user name and
password. The `unwrap` of the last call panics on an error. -/
def request (H : Hash) (rng : Nat → UInt8) (userName : String) (userPassword : Bytes) : Out Empty Packet :=
  let p := Packet.new rng .AccessRequest SECRET
  let p := Gen.addString USER_NAME_TYPE p userName
  match Gen.addUserPassword H USER_PASSWORD_TYPE p userPassword with
  | (p, .ok ()) => .ok p
  | (_, .err _) => .panic
  | (_, .panic) => .panic

/-- `x.unwrap().unwrap()` on an `Option<Result<_, _>>`. -/
def unwrap2 {α : Type} : Option (Out AVPError α) → Out Empty α
  | some (.ok a) => .ok a
  | _ => .panic

/-- `String::from_utf8(..).unwrap()`. -/
def unwrapUtf8 (bs : Bytes) : Out Empty String :=
  match stringFromUtf8 bs with
  | .ok s => .ok s
  | _ => .panic

/-- `packet.encode().unwrap()`. -/
def unwrapEncoded : Out PacketError Bytes → Out Empty Bytes
  | .ok bs => .ok bs
  | _ => .panic

/-- The handler of the example server up to the call of `send_to` — examples/server.rs:45-69; the address and the datagram
given to `send_to`. With `echo` the handler of e2e-test/src/test.rs:18-40, which adds the user name to the response. -/
def handler (H : Hash) (ck echo : Bool) (req : Request) : Out Empty (SocketAddr × Bytes) := do
  let reqPacket := req.getPacket
  let maybeUserName : Option (Out AVPError String) := Gen.lookup H USER_NAME_TYPE reqPacket .string
  let maybeUserPassword : Option (Out AVPError Bytes) := Gen.lookup H USER_PASSWORD_TYPE reqPacket .userPassword
  let userName ← unwrap2 maybeUserName
  let userPassword ← unwrapUtf8 (← unwrap2 maybeUserPassword)
  let code := if userName = "admin" ∧ userPassword = "p@ssw0rd" then Code.AccessAccept else Code.AccessReject
  let respPacket := reqPacket.makeResponsePacket code
  let respPacket := if echo then Gen.addString USER_NAME_TYPE respPacket userName else respPacket
  let data ← unwrapEncoded (respPacket.encode H ck)
  .ok (req.getRemoteAddr, data)

/-- The handler of the time-out test, after its sleep and up to the call of `send_to` — e2e-test/src/test.rs:46-58. How
long it sleeps is up to the scheduler: the step that ends a handler can come at any time. -/
def longHandler (H : Hash) (ck : Bool) (req : Request) : Out Empty (SocketAddr × Bytes) := do
  let reqPacket := req.getPacket
  let respPacket := reqPacket.makeResponsePacket .AccessReject
  let data ← unwrapEncoded (respPacket.encode H ck)
  .ok (req.getRemoteAddr, data)

/-- `fetch_secret` of the example provider — examples/server.rs:72-79. -/
def fetchSecret (_remoteAddr : SocketAddr) : SecretAnswer := .ok SECRET

end Radius.Example

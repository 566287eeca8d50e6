import Verif.Model.Server
/-! # `radius/src/client.rs`

What the operating system answers to each socket operation is an argument (`ClientEnv`); an operation that is not
completed, before the deadline if there is one, answers `pending`. The result of a call is the trace of its socket operations
together with its return value, or `pending` if it never returns. -/
namespace Radius

/-- `Display` of `PacketError` (thiserror) — radius/src/core/packet.rs:20-49. -/
def PacketError.display : PacketError → String
  | .InsufficientPacketPayloadLengthError a b =>
    "RADIUS packet doesn't have enough length of bytes; it has to be at least " ++ toString a ++
      " bytes, but actual length was " ++ toString b
  | .InsufficientHeaderDefinedPacketLengthError a b =>
    "RADIUS packet header indicates the length as " ++ toString a ++
      " bytes, but this is insufficient; this must have " ++ toString b ++ " bytes at least"
  | .HeaderDefinedPacketLengthExceedsMaximumLimitError a b =>
    "RADIUS packet header indicates the length as " ++ toString a ++
      " bytes, but this exceeds the maximum length " ++ toString b ++ " bytes"
  | .DecodingError msg => "failed to decode the packet: " ++ msg
  | .EncodingError msg => "failed to encode the packet: " ++ msg
  | .UnknownCodeError msg => "Unknown RADIUS packet type code: " ++ msg
  | .HashComputationFailed msg => "computation of hash failed: " ++ msg

/-- `enum ClientError` — radius/src/client.rs:12-46. -/
inductive ClientError where
  | FailedUdpSocketBindingError (e : String)
  | FailedEstablishingUdpConnectionError (addr e : String)
  | FailedRadiusPacketEncodingError (e : String)
  | FailedSendingRadiusPacketError (addr e : String)
  | FailedReceivingResponseError (addr e : String)
  | FailedDecodingRadiusResponseError (e : String)
  | ConnectionTimeoutError
  | SocketTimeoutError
deriving Repr, DecidableEq

/-- What an awaited operation comes to. -/
inductive Await (α : Type) where
  | ready (a : α)
  | pending
deriving Repr, DecidableEq

/-- `tokio::net::UdpSocket`: its local address and, once connected, its peer. -/
structure UdpSocket where
  localAddr : SocketAddr
  peer : Option SocketAddr
deriving DecidableEq

/-- Socket operations performed, with their arguments. -/
inductive ClientEvent where
  | bind (addr : SocketAddr)
  | connect (addr : SocketAddr)
  /-- `send` was called on a socket connected to `to` -/
  | send (to : SocketAddr) (data : Bytes)
  /-- a datagram was taken from the socket -/
  | received (datagram : Bytes)
deriving DecidableEq

/-- The answers of the operating system. -/
structure ClientEnv where
  bind : Await (Except String Unit)
  connect : Await (Except String Unit)
  send : Await (Except String Unit)
  recv : Await (Except String Bytes)

/-- The trace and the result of running (a part of) an async function. -/
structure Run (α : Type) where
  trace : List ClientEvent
  result : Await (Out ClientError α)
deriving DecidableEq

namespace Run

/-- A synchronous computation. -/
def lift {α : Type} (r : Out ClientError α) : Run α := ⟨[], .ready r⟩

/-- `let x = a.await?; f(x)` -/
def bind {α β : Type} (a : Run α) (f : α → Run β) : Run β :=
  match a.result with
  | .ready (.ok x) => ⟨a.trace ++ (f x).trace, (f x).result⟩
  | .ready (.err e) => ⟨a.trace, .ready (.err e)⟩
  | .ready .panic => ⟨a.trace, .ready .panic⟩
  | .pending => ⟨a.trace, .pending⟩

end Run

/-- An operation on the socket: its event and the answer, errors mapped by `f`. -/
def socketOp {α : Type} (event : ClientEvent) (answer : Await (Except String α)) (f : String → ClientError) : Run α :=
  ⟨[event], match answer with
    | .ready (.ok a) => .ready (.ok a)
    | .ready (.error e) => .ready (.err (f e))
    | .pending => .pending⟩

/-- `tokio::time::timeout` around a future, if a duration is configured; `d` is the duration in nanoseconds. -/
def withTimeout {α : Type} (d : Option Nat) (r : Run α) (e : ClientError) : Run α :=
  match d, r.result with
  | some _, .pending => ⟨r.trace, .ready (.err e)⟩
  | _, _ => r

/-- `struct Client` — radius/src/client.rs:49-52; durations in nanoseconds. -/
structure Client where
  connectionTimeout : Option Nat
  socketTimeout : Option Nat

namespace Client

/-- `Client::MAX_DATAGRAM_SIZE` — radius/src/client.rs:55. -/
def MAX_DATAGRAM_SIZE : Nat := 65507

/-- `Client::new` — radius/src/client.rs:65-70. -/
def new (connectionTimeout socketTimeout : Option Nat) : Client := { connectionTimeout, socketTimeout }

/-- `"0.0.0.0:0".parse().unwrap()` or `"[::]:0".parse().unwrap()` — radius/src/client.rs:80-86. -/
def localAddrFor (remote : SocketAddr) : SocketAddr :=
  if remote.isIpv4 then .v4 ⟨0, 0, 0, 0⟩ 0
  else .v6 ⟨[0, 0, 0, 0, 0, 0, 0, 0, 0, 0, 0, 0, 0, 0, 0, 0], rfl⟩ 0 0 0

/-- `Client::connect` — radius/src/client.rs:131-139. A connected socket sends to its peer and receives from it only. -/
def connect (env : ClientEnv) (conn : UdpSocket) (remote : SocketAddr) : Run UdpSocket :=
  (socketOp (.connect remote) env.connect
    (fun e => .FailedEstablishingUdpConnectionError remote.display e)).bind
    (fun _ => Run.lift (.ok { conn with peer := some remote }))

/-- `conn.send(data)`: an unconnected socket cannot send. -/
def sendOn (env : ClientEnv) (conn : UdpSocket) (data : Bytes) (f : String → ClientError) : Run Unit :=
  match conn.peer with
  | some peer => socketOp (.send peer data) env.send f
  | none => Run.lift (.err (f "Destination address required (os error 89)"))

/-- `conn.recv(&mut buf)`: the number of bytes and the buffer. -/
def recvOn (env : ClientEnv) (buf : Bytes) (f : String → ClientError) : Run (Bytes × Nat) :=
  match env.recv with
  | .ready (.ok datagram) => ⟨[.received datagram], .ready (.ok (Server.recvInto buf datagram))⟩
  | .ready (.error e) => Run.lift (.err (f e))
  | .pending => ⟨[], .pending⟩

/-- `Client::request` — radius/src/client.rs:141-165. -/
def request (env : ClientEnv) (conn : UdpSocket) (requestData : Bytes) (remote : SocketAddr) : Run Bytes :=
  (sendOn env conn requestData (fun e => .FailedSendingRadiusPacketError remote.display e)).bind fun _ =>
  (recvOn env (List.replicate MAX_DATAGRAM_SIZE 0)
    (fun e => .FailedReceivingResponseError remote.display e)).bind fun (buf, len) =>
  Run.lift (slice buf 0 len)

/-- `Client::send_packet` — radius/src/client.rs:75-129. -/
def sendPacket (H : Hash) (ck : Bool) (self : Client) (env : ClientEnv) (remote : SocketAddr) (requestPacket : Packet) :
    Run Packet :=
  let localAddr := localAddrFor remote
  ((socketOp (.bind localAddr) env.bind ClientError.FailedUdpSocketBindingError).bind
    fun _ => Run.lift (.ok { localAddr, peer := none })).bind fun (conn : UdpSocket) =>
  (withTimeout self.connectionTimeout (connect env conn remote) .ConnectionTimeoutError).bind fun conn =>
  (Run.lift ((requestPacket.encode H ck).mapErr
    (fun e => .FailedRadiusPacketEncodingError e.display))).bind fun requestData =>
  (withTimeout self.socketTimeout (request env conn requestData remote) .SocketTimeoutError).bind fun response =>
  Run.lift ((Packet.decode response requestPacket.getSecret).mapErr
    (fun e => .FailedDecodingRadiusResponseError e.display))

end Client
end Radius

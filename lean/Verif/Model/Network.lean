import Verif.Model.Example
/-! # Clients, a network and the example server together

The code is that of `Model/Client.lean`, `Model/Server.lean` and `Model/Example.lean`; this file only says how the parts are
connected. The network may lose, repeat, delay and reorder datagrams. It does not change them and invents none, except
that hosts other than the clients may send `Others address datagram` to the server. Nobody but the server sends to the
clients. -/
namespace Radius.Network
open Server

/-- A call of `send_packet` that has sent its datagram `data`; `addr` is the address the operating system gave to its
socket. -/
structure Call where
  addr : SocketAddr
  client : Client
  remote : SocketAddr
  packet : Packet
  data : Bytes

/-- The server with its trace, the calls so far, the datagrams sent by handlers, and the calls that have returned a
packet. -/
structure World where
  server : State
  trace : List Event
  calls : List Call
  replies : List (SocketAddr × Bytes)
  returned : List (Nat × Packet)

/-- Actions of the server in which neither the network, the provider nor the handler takes part. -/
def plain : Action → Bool
  | .recv .. | .secret .. | .handlerEnds .. => false
  | _ => true

/-- The worlds that can come about; `echo` chooses the handler, see `Example.handler`. -/
inductive Reaches (H : Hash) (ck echo : Bool) (Others : SocketAddr → Bytes → Prop) : World → Prop
  | start : Reaches H ck echo Others ⟨listen, [], [], [], []⟩
  /-- a client sends a request — examples/client.rs:16-21 -/
  | call (w : World) (c : Call) (env : ClientEnv) : Reaches H ck echo Others w →
      .send c.remote c.data ∈ (c.client.sendPacket H ck env c.remote c.packet).trace →
      Reaches H ck echo Others { w with calls := w.calls ++ [c] }
  /-- the datagram of a client reaches the server, for the first time or again -/
  | deliver (w : World) (c : Call) (loc : Option SocketAddr) (s : State) (es : List Event) : Reaches H ck echo Others w →
      c ∈ w.calls → step H w.server (.recv c.data c.addr loc) = some (s, es) →
      Reaches H ck echo Others { w with server := s, trace := w.trace ++ es }
  /-- a datagram of somebody else reaches the server -/
  | stranger (w : World) (a : SocketAddr) (d : Bytes) (loc : Option SocketAddr) (s : State) (es : List Event) :
      Reaches H ck echo Others w → Others a d → step H w.server (.recv d a loc) = some (s, es) →
      Reaches H ck echo Others { w with server := s, trace := w.trace ++ es }
  /-- the provider of the example — examples/server.rs:72-79 -/
  | fetch (w : World) (i : Nat) (t : Task) (s : State) (es : List Event) : Reaches H ck echo Others w →
      w.server.tasks[i]? = some t → step H w.server (.secret i (Example.fetchSecret t.remoteAddr)) = some (s, es) →
      Reaches H ck echo Others { w with server := s, trace := w.trace ++ es }
  | serve (w : World) (a : Action) (s : State) (es : List Event) : Reaches H ck echo Others w → plain a = true →
      step H w.server a = some (s, es) → Reaches H ck echo Others { w with server := s, trace := w.trace ++ es }
  /-- the handler sends its answer and returns — examples/server.rs:66-69 -/
  | answer (w : World) (i : Nat) (r : Request) (to : SocketAddr) (data : Bytes) (s : State) (es : List Event) :
      Reaches H ck echo Others w → .started i r ∈ w.trace → Example.handler H ck echo r = .ok (to, data) →
      step H w.server (.handlerEnds i .ok) = some (s, es) →
      Reaches H ck echo Others { w with server := s, trace := w.trace ++ es, replies := w.replies ++ [(to, data)] }
  /-- `send_to` fails and the handler returns the error -/
  | unsent (w : World) (i : Nat) (r : Request) (to : SocketAddr) (data : Bytes) (s : State) (es : List Event) :
      Reaches H ck echo Others w → .started i r ∈ w.trace → Example.handler H ck echo r = .ok (to, data) →
      step H w.server (.handlerEnds i .err) = some (s, es) →
      Reaches H ck echo Others { w with server := s, trace := w.trace ++ es }
  /-- the handler panics -/
  | panics (w : World) (i : Nat) (r : Request) (s : State) (es : List Event) :
      Reaches H ck echo Others w → .started i r ∈ w.trace → Example.handler H ck echo r = .panic →
      step H w.server (.handlerEnds i .panic) = some (s, es) →
      Reaches H ck echo Others { w with server := s, trace := w.trace ++ es }
  /-- a datagram addressed to a waiting client arrives and its call returns a packet -/
  | receive (w : World) (j : Nat) (c : Call) (env : ClientEnv) (d : Bytes) (q : Packet) : Reaches H ck echo Others w →
      w.calls[j]? = some c → (∀ q', (j, q') ∉ w.returned) → (c.addr, d) ∈ w.replies → env.recv = .ready (.ok d) →
      (c.client.sendPacket H ck env c.remote c.packet).result = .ready (.ok q) →
      Reaches H ck echo Others { w with returned := w.returned ++ [(j, q)] }

end Radius.Network

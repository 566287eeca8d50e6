import Verif.Model.Server
import Verif.Spec.Packet
/-! # Specification: what traces of the server may look like

Only the event vocabulary is taken from the model. -/
namespace Radius.Spec

/-- The task an event belongs to. -/
def taskOf : Event → Option Nat
  | .received i .. | .secret i .. | .rejected i | .duplicate i _ | .admitted i _ | .started i _ | .ended i _
  | .released i _ | .crashed i => some i
  | _ => none

/-- The events of one task, in order. -/
def eventsOf (i : Nat) (tr : List Event) : List Event := tr.filter (fun e => taskOf e = some i)

/-- The receive buffer size configured by the calls in a trace (default 1500). -/
def bufferSizeAfter (tr : List Event) : Nat :=
  tr.foldl (fun n e => match e with | .bufferSizeSet m => m | _ => n) 1500

/-- Whether validation is switched off by the calls in a trace (default: no). -/
def skipAfter (tr : List Event) : Bool :=
  tr.foldl (fun b e => match e with | .skipSet b' => b' | _ => b) false

/-- Whether `run()` is executing at the end of a trace. -/
def runningAfter (tr : List Event) : Bool :=
  tr.foldl (fun b e => match e with
    | .runStarted => true
    | .runReturned _ | .runDropped => false
    | _ => b) false

/-- `k` is held by `j` at the end of a trace: admitted and not released. -/
def heldBy (tr : List Event) (j : Nat) (k : RequestKey) : Prop :=
  .admitted j k ∈ tr ∧ .released j k ∉ tr

/-- A datagram cut to `n` bytes is a request packet `p` that may be handled under `secret`. -/
def Acceptable (H : Hash) (skip : Bool) (data secret : Bytes) (p : Packet) : Prop :=
  secret ≠ [] ∧ Packet.decode data secret = .ok p ∧
  (skip = false → Packet.isAuthenticRequest H data secret = .ok true)

/-- The key of a request: text of the remote address and identifier. -/
def keyOf (remote : SocketAddr) (p : Packet) : RequestKey := ⟨remote.display, p.identifier⟩

/-- Two socket addresses are the same endpoint: same family, address, port and (for IPv6) scope. The IPv6 flow
information is not part of an endpoint. -/
def sameEndpoint : SocketAddr → SocketAddr → Prop
  | .v4 ip port, .v4 ip' port' => ip = ip' ∧ port = port'
  | .v6 ip port _ scope, .v6 ip' port' _ scope' => ip = ip' ∧ port = port' ∧ scope = scope'
  | _, _ => False

end Radius.Spec

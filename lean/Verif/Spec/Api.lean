import Verif.Model.Packet
/-!
# Specification vocabulary: histories of public API calls

The ways a user of the crate can obtain or change a `Packet`. The generated `add_*` / `delete_*` accessors
(rfcXXXX.rs) act on the packet only through `Packet::add`, `Packet::extend` and `Packet::delete`.
-/
namespace Radius.Spec

/-- Packets obtainable by any sequence of public constructors and mutators. -/
inductive Reachable : Packet → Prop
  | new (rng : Nat → UInt8) (code : Code) (secret : Bytes) : Reachable (Packet.new rng code secret)
  | newWithIdentifier (rng : Nat → UInt8) (code : Code) (secret : Bytes) (ident : UInt8) :
      Reachable (Packet.newWithIdentifier rng code secret ident)
  | decode (bs secret : Bytes) (p : Packet) : Packet.decode bs secret = .ok p → Reachable p
  | makeResponsePacket (p : Packet) (code : Code) : Reachable p → Reachable (p.makeResponsePacket code)
  | setIdentifier (p : Packet) (ident : UInt8) : Reachable p → Reachable (p.setIdentifier ident)
  | add (p : Packet) (avp : AVP) : Reachable p → Reachable (p.add avp)
  | extend (p : Packet) (avps : List AVP) : Reachable p → Reachable (p.extend avps)
  | delete (p : Packet) (typ : AVPType) : Reachable p → Reachable (p.delete typ)

/-- One edit of the attribute list. -/
inductive Edit where
  | add (avp : AVP)
  | extend (avps : List AVP)
  | delete (typ : AVPType)

/-- Performing an edit through the public API. -/
def Edit.run (p : Packet) : Edit → Packet
  | .add avp => p.add avp
  | .extend avps => p.extend avps
  | .delete typ => p.delete typ

/-- Performing a sequence of edits. -/
def runEdits (p : Packet) (es : List Edit) : Packet := es.foldl Edit.run p

/-- What one edit adds for type `t`. -/
def Edit.added (t : AVPType) : Edit → List Bytes
  | .add avp => if avp.typ = t then [avp.value] else []
  | .extend avps => (avps.filter (fun a => a.typ = t)).map (fun a => a.value)
  | .delete _ => []

/-- The values of type `t` after a sequence of edits, starting from `vs`: a plain per-type sequence. -/
def history (t : AVPType) (vs : List Bytes) : List Edit → List Bytes
  | [] => vs
  | .delete t' :: es => history t (if t' = t then [] else vs) es
  | e :: es => history t (vs ++ e.added t) es

/-- Whether one of the edits deletes type `t`. -/
def deleted (t : AVPType) (es : List Edit) : Bool :=
  es.any (fun e => match e with | .delete t' => t' == t | _ => false)

/-- The attributes put in by a sequence of edits that no later edit deletes, in the order they were put in. -/
def survivors : List Edit → List AVP
  | [] => []
  | .add a :: es => [a].filter (fun a => !deleted a.typ es) ++ survivors es
  | .extend as :: es => as.filter (fun a => !deleted a.typ es) ++ survivors es
  | .delete _ :: es => survivors es

end Radius.Spec

import Verif.Model.Request
/-! # `radius/src/server.rs`

A labelled transition system. `State` is the `Server` value together with the spawned tasks and the shared lock;
an `Action` is one scheduler or environment choice; `step` performs the code between two points where another
task or the environment can interfere. The `Event`s of a step are what an observer of the API sees.

Environment choices: datagrams and socket errors, answers of the secret provider, handler outcomes, the shutdown
trigger, and which task runs next. -/
namespace Radius

/-- `DEFAULT_BUFFER_SIZE` — radius/src/server.rs:19. -/
def DEFAULT_BUFFER_SIZE : Nat := 1500

/-- `DEFAULT_SKIP_AUTHENTICITY_VALIDATION` — radius/src/server.rs:20. -/
def DEFAULT_SKIP_AUTHENTICITY_VALIDATION : Bool := false

/-- `struct RequestKey` — radius/src/server.rs:262-266. -/
structure RequestKey where
  ip : String
  identifier : UInt8
deriving DecidableEq

/-- What a call of `SecretProvider::fetch_secret` does — radius/src/server.rs:257-260; the error value is only
logged. -/
inductive SecretAnswer where
  | ok (secret : Bytes)
  | err
  | panic
deriving DecidableEq

/-- How a handler call ends — radius/src/server.rs:215-226. `err` is printed; `panic` also stands for a panic
of that printing (`println!` on a closed stdout, a panicking `Debug`). -/
inductive Outcome where
  | ok
  | err
  | panic
deriving DecidableEq

/-- Where a task is in `process_request` — radius/src/server.rs:158-230. -/
inductive Phase where
  /-- spawned, before line 168 -/
  | spawned
  /-- lines 168-205 done, about to call `write()` of line 208 -/
  | waiting (packet : Packet) (key : RequestKey)
  /-- owns the write guard of line 208, about to execute line 209 -/
  | locked (packet : Packet) (key : RequestKey)
  /-- still owns this guard, the set did not contain the key, about to execute line 212 -/
  | checked (packet : Packet) (key : RequestKey)
  /-- guard dropped at line 213, about to call the handler of line 215 -/
  | admitted (packet : Packet) (key : RequestKey)
  /-- the handler future is running, lines 215-220 -/
  | handling (packet : Packet) (key : RequestKey)
  /-- handler result consumed, about to call `write()` of line 228 -/
  | returned (key : RequestKey)
  /-- owns the write guard of line 228, about to execute line 229 -/
  | lockedAgain (key : RequestKey)
  /-- the function has returned -/
  | finished
  /-- the task has panicked -/
  | crashed
deriving DecidableEq

/-- The arguments a task got from the receive loop — radius/src/server.rs:141-152. -/
structure Task where
  requestData : Bytes
  localAddr : SocketAddr
  remoteAddr : SocketAddr
  skipAuthenticityValidation : Bool
  phase : Phase
deriving DecidableEq

/-- `std::sync::RwLock`, only used through `write()`: the owning task and the poison flag. -/
structure LockState where
  owner : Option Nat
  poisoned : Bool
deriving DecidableEq

/-- `struct Server` (radius/src/server.rs:26-35) with its tasks. `buf` is the receive buffer of line 116, present
while `run()` is executing. -/
structure State where
  skipAuthenticityValidation : Bool
  bufSize : Nat
  undergoing : List RequestKey
  lock : LockState
  buf : Option Bytes
  tasks : List Task
deriving DecidableEq

/-- What can be observed. Tasks are named by the order in which they were spawned. -/
inductive Event where
  | bufferSizeSet (n : Nat)
  | skipSet (b : Bool)
  | runStarted
  /-- `run()` returned; `none` is `Ok(())` -/
  | runReturned (error : Option String)
  /-- the future of `run()` was dropped -/
  | runDropped
  /-- a task was spawned for a datagram; `localAddr` is what `local_addr()` returned -/
  | received (task : Nat) (datagram : Bytes) (remote localAddr : SocketAddr)
  /-- a datagram was received but `local_addr()` failed -/
  | noLocalAddr (datagram : Bytes) (remote : SocketAddr)
  /-- the provider was asked for the secret of `remote` and gave this answer -/
  | secret (task : Nat) (remote : SocketAddr) (answer : SecretAnswer)
  /-- `process_request` returned before the duplicate check -/
  | rejected (task : Nat)
  /-- `process_request` returned from the duplicate check -/
  | duplicate (task : Nat) (key : RequestKey)
  | admitted (task : Nat) (key : RequestKey)
  | started (task : Nat) (request : Request)
  | ended (task : Nat) (outcome : Outcome)
  | released (task : Nat) (key : RequestKey)
  /-- a panic outside of provider and handler -/
  | crashed (task : Nat)
deriving DecidableEq

/-- Choices of scheduler and environment. -/
inductive Action where
  | setBufferSize (n : Nat)
  | setSkip (b : Bool)
  | run
  | shutdown
  | dropRun
  | recvError (e : String)
  | recv (datagram : Bytes) (remote : SocketAddr) (localAddr : Option SocketAddr)
  | secret (task : Nat) (answer : SecretAnswer)
  | lock (task : Nat)
  | check (task : Nat)
  | insert (task : Nat)
  | invoke (task : Nat)
  | handlerEnds (task : Nat) (outcome : Outcome)
  | lockAgain (task : Nat)
  | remove (task : Nat)
deriving DecidableEq

namespace Server

/-- `Server::listen` when `bind` succeeds — radius/src/server.rs:57-81. -/
def listen : State :=
  { skipAuthenticityValidation := DEFAULT_SKIP_AUTHENTICITY_VALIDATION
    bufSize := DEFAULT_BUFFER_SIZE
    undergoing := []
    lock := { owner := none, poisoned := false }
    buf := none
    tasks := [] }

/-- `recv_from(&mut buf)` (tokio): the datagram is written to the front of the buffer, cut to its size. -/
def recvInto (buf datagram : Bytes) : Bytes × Nat :=
  let size := min datagram.length buf.length
  (datagram.take size ++ buf.drop size, size)

/-- Lines 168-205 of `process_request` after the provider answered: `none` is an early return. -/
def validate (H : Hash) (requestData : Bytes) (remoteAddr : SocketAddr) (skip : Bool) (answer : SecretAnswer) :
    Out Empty (Option (Packet × RequestKey)) :=
  match answer with
  | .panic => .panic
  | .err => .ok none
  | .ok secret =>
    if secret.isEmpty then .ok none
    else do
      let authentic ← if skip then .ok true else Packet.isAuthenticRequest H requestData secret
      if !authentic then .ok none
      else match Packet.decode requestData secret with
        | .err _ => .ok none
        | .panic => .panic
        | .ok packet =>
          .ok (some (packet, { ip := remoteAddr.display, identifier := packet.getIdentifier }))

/-- Moves a task on. -/
def setPhase (s : State) (i : Nat) (phase : Phase) : State :=
  { s with tasks := s.tasks.modify i (fun t => { t with phase }) }

/-- A panic in a task; a write guard it holds poisons the lock when dropped (std). -/
def crash (s : State) (i : Nat) : State :=
  let s := setPhase s i .crashed
  if s.lock.owner = some i then { s with lock := { owner := none, poisoned := true } } else s

/-- `undergoing_requests_lock.write().unwrap()`, possible while nobody owns the lock. -/
def acquire (s : State) (i : Nat) (next : Phase) : Option (State × List Event) :=
  if s.lock.owner.isSome then none
  else if s.lock.poisoned then some (crash s i, [.crashed i])
  else some (setPhase { s with lock := { s.lock with owner := some i } } i next, [])

/-- Dropping the write guard. -/
def release (s : State) : State := { s with lock := { s.lock with owner := none } }

/-- `HashSet::insert`. -/
def insertKey (keys : List RequestKey) (k : RequestKey) : List RequestKey := if k ∈ keys then keys else k :: keys

/-- `HashSet::remove`. -/
def removeKey (keys : List RequestKey) (k : RequestKey) : List RequestKey := keys.filter (· ≠ k)

/-- The new state and events of an action, `none` if it is not possible. -/
def step (H : Hash) (s : State) : Action → Option (State × List Event)
  -- `set_buffer_size` — radius/src/server.rs:101-103; `&mut self` excludes a running `run()`
  | .setBufferSize n => if s.buf.isSome then none else some ({ s with bufSize := n }, [.bufferSizeSet n])
  -- `set_skip_authenticity_validation` — radius/src/server.rs:106-108
  | .setSkip b =>
    if s.buf.isSome then none
    else some ({ s with skipAuthenticityValidation := b }, [.skipSet b])
  -- entering `run` and `run_loop` — radius/src/server.rs:88-90, 115-116
  | .run =>
    if s.buf.isSome then none
    else some ({ s with buf := some (List.replicate s.bufSize 0) }, [.runStarted])
  -- the trigger wins in `select!` — radius/src/server.rs:93-96
  | .shutdown => if s.buf.isSome then some ({ s with buf := none }, [.runReturned none]) else none
  -- the caller drops the future of `run`
  | .dropRun => if s.buf.isSome then some ({ s with buf := none }, [.runDropped]) else none
  -- `recv_from(..).await?` fails — radius/src/server.rs:123, 90-92
  | .recvError e => if s.buf.isSome then some ({ s with buf := none }, [.runReturned (some e)]) else none
  -- one turn of the loop — radius/src/server.rs:118-154
  | .recv datagram remote localAddr =>
    match s.buf with
    | none => none
    | some buf =>
      let (buf, size) := recvInto buf datagram
      let requestData := buf.take size
      match localAddr with
      | none => some ({ s with buf := some buf }, [.noLocalAddr datagram remote])
      | some localAddr =>
        let task : Task :=
          { requestData, localAddr, remoteAddr := remote,
            skipAuthenticityValidation := s.skipAuthenticityValidation, phase := .spawned }
        some ({ s with buf := some buf, tasks := s.tasks ++ [task] },
          [.received s.tasks.length datagram remote localAddr])
  -- radius/src/server.rs:168-205
  | .secret i answer =>
    match s.tasks[i]? with
    | some t =>
      match t.phase with
      | .spawned =>
        match validate H t.requestData t.remoteAddr t.skipAuthenticityValidation answer with
        | .ok none => some (setPhase s i .finished, [.secret i t.remoteAddr answer, .rejected i])
        | .ok (some (packet, key)) => some (setPhase s i (.waiting packet key), [.secret i t.remoteAddr answer])
        | _ => some (crash s i, [.secret i t.remoteAddr answer, .crashed i])
      | _ => none
    | none => none
  -- radius/src/server.rs:208
  | .lock i =>
    match s.tasks[i]? with
    | some t =>
      match t.phase with
      | .waiting packet key => acquire s i (.locked packet key)
      | _ => none
    | none => none
  -- radius/src/server.rs:209-211
  | .check i =>
    match s.tasks[i]? with
    | some t =>
      match t.phase with
      | .locked packet key =>
        if key ∈ s.undergoing then some (release (setPhase s i .finished), [.duplicate i key])
        else some (setPhase s i (.checked packet key), [])
      | _ => none
    | none => none
  -- radius/src/server.rs:212-213
  | .insert i =>
    match s.tasks[i]? with
    | some t =>
      match t.phase with
      | .checked packet key =>
        some (release (setPhase { s with undergoing := insertKey s.undergoing key } i (.admitted packet key)),
          [.admitted i key])
      | _ => none
    | none => none
  -- radius/src/server.rs:215-219
  | .invoke i =>
    match s.tasks[i]? with
    | some t =>
      match t.phase with
      | .admitted packet key =>
        some (setPhase s i (.handling packet key),
          [.started i (Request.new t.localAddr t.remoteAddr packet)])
      | _ => none
    | none => none
  -- radius/src/server.rs:220-226
  | .handlerEnds i outcome =>
    match s.tasks[i]? with
    | some t =>
      match t.phase with
      | .handling _ key =>
        match outcome with
        | .panic => some (crash s i, [.ended i .panic])
        | o => some (setPhase s i (.returned key), [.ended i o])
      | _ => none
    | none => none
  -- radius/src/server.rs:228
  | .lockAgain i =>
    match s.tasks[i]? with
    | some t =>
      match t.phase with
      | .returned key => acquire s i (.lockedAgain key)
      | _ => none
    | none => none
  -- radius/src/server.rs:229-230
  | .remove i =>
    match s.tasks[i]? with
    | some t =>
      match t.phase with
      | .lockedAgain key =>
        some (release (setPhase { s with undergoing := removeKey s.undergoing key } i .finished),
          [.released i key])
      | _ => none
    | none => none

/-- `Exec H s tr`: starting from `listen`, some sequence of actions leads to state `s` with the trace `tr`. -/
inductive Exec (H : Hash) : State → List Event → Prop
  | init : Exec H listen []
  | step (s s' : State) (tr es : List Event) (a : Action) :
      Exec H s tr → step H s a = some (s', es) → Exec H s' (tr ++ es)

/-- `Steps H s as s' es`: performing the actions `as` one after the other. -/
inductive Steps (H : Hash) : State → List Action → State → List Event → Prop
  | nil (s : State) : Steps H s [] s []
  | cons (s s' s'' : State) (a : Action) (as : List Action) (es es' : List Event) :
      step H s a = some (s', es) → Steps H s' as s'' es' → Steps H s (a :: as) s'' (es ++ es')

end Server

end Radius

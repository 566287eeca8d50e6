import Verif.Props.NetworkProgress
/-! # C73: a request is handled again each time its datagram arrives after the previous handler has returned -/
namespace Radius
open Spec Server

/-- The request a handler is called with. -/
def startedRequest : Event → Option Request
  | .started _ r => some r
  | _ => none

/-- What is done for one copy of a datagram. -/
def oneCopy (i : Nat) (d secret : Bytes) (rem loc : SocketAddr) : List Action :=
  [.recv d rem (some loc), .secret i (.ok secret), .lock i, .check i, .insert i, .invoke i, .handlerEnds i .ok, .lockAgain i,
    .remove i]

theorem insert_unlocks {H : Hash} {s s' : State} {i : Nat} {es : List Event} (h : step H s (.insert i) = some (s', es)) :
    s'.lock.owner = none := by
  simp only [step] at h
  repeat' split at h
  all_goals first | (cases h; done) | skip
  obtain ⟨rfl, _⟩ := Prod.mk.inj (Option.some.inj h)
  rfl

theorem invoke_lock {H : Hash} {s s' : State} {i : Nat} {es : List Event} (h : step H s (.invoke i) = some (s', es)) :
    s'.lock = s.lock := by
  simp only [step] at h
  repeat' split at h
  all_goals first | (cases h; done) | skip
  obtain ⟨rfl, _⟩ := Prod.mk.inj (Option.some.inj h)
  rfl

theorem steps_append {H : Hash} {as bs : List Action} : ∀ {s s1 s2 : State} {es fs : List Event}, Steps H s as s1 es →
    Steps H s1 bs s2 fs → Steps H s (as ++ bs) s2 (es ++ fs) := by
  induction as with
  | nil => intro s s1 s2 es fs h1 h2; cases h1; exact h2
  | cons a as ih =>
    intro s s1 s2 es fs h1 h2
    cases h1 with
    | cons _ m _ _ _ e1 e2 g1 g2 =>
      have := Steps.cons _ _ _ _ _ _ _ g1 (ih g2 h2)
      rwa [← List.append_assoc] at this

/-- One copy is handled to the end. -/
theorem one_copy {H : Hash} {s : State} {tr : List Event} (h : Exec H s tr) (d secret : Bytes)
    (rem loc : SocketAddr) (p : Packet) (hrun : runningAfter tr = true)
    (hacc : Acceptable H (skipAfter tr) (d.take (bufferSizeAfter tr)) secret p)
    (hfree : ∀ j, .admitted j ⟨rem.display, p.identifier⟩ ∈ tr → .released j ⟨rem.display, p.identifier⟩ ∈ tr)
    (hlock : s.lock.owner = none) :
    ∃ s', Steps H s (oneCopy s.tasks.length d secret rem loc) s'
      [.received s.tasks.length d rem loc, .secret s.tasks.length rem (.ok secret),
       .admitted s.tasks.length ⟨rem.display, p.identifier⟩, .started s.tasks.length ⟨loc, rem, p⟩,
       .ended s.tasks.length .ok, .released s.tasks.length ⟨rem.display, p.identifier⟩] ∧ s'.lock.owner = none := by
  obtain ⟨s7, hsteps⟩ := C39_identifier_reusable h d secret rem loc p hrun hacc hfree hlock
  generalize hn : s.tasks.length = n at hsteps
  have x7 := exec_steps h hsteps
  have l7 : s7.lock.owner = none := by
    have hsteps' := hsteps
    generalize [Event.received n d rem loc, .secret n rem (.ok secret), .admitted n ⟨rem.display, p.identifier⟩,
      .started n ⟨loc, rem, p⟩] = evs at hsteps'
    cases hsteps' with | cons _ a1 _ _ _ f1 g1 t1 hsteps' =>
    cases hsteps' with | cons _ a2 _ _ _ f2 g2 t2 hsteps' =>
    cases hsteps' with | cons _ a3 _ _ _ f3 g3 t3 hsteps' =>
    cases hsteps' with | cons _ a4 _ _ _ f4 g4 t4 hsteps' =>
    cases hsteps' with | cons _ a5 _ _ _ f5 g5 t5 hsteps' =>
    cases hsteps' with | cons _ a6 _ _ _ f6 g6 t6 hsteps' =>
    cases hsteps'
    rw [invoke_lock t6]; exact insert_unlocks t5
  obtain ⟨t, rest, ht, _, _, _, _, _, _, hrest, hhist⟩ := task_facts x7 (pre := tr) (i := n) rfl
  have hph : t.phase = .handling p ⟨rem.display, p.identifier⟩ := by
    have e : rest = [.secret n rem (.ok secret), .admitted n ⟨rem.display, p.identifier⟩,
        .started n ⟨loc, rem, p⟩] := by
      rw [← hrest]; simp [eventsOf, taskOf]
    clear hrest
    generalize t.phase = ph at hhist
    cases hhist with
    | handling =>
      simp only [List.cons.injEq, Event.started.injEq, Request.mk.injEq] at e
      obtain ⟨_, _, ⟨_, _, _, rfl⟩, _⟩ := e
      rfl
    | _ => simp at e
  generalize (⟨rem.display, p.identifier⟩ : RequestKey) = k at *
  have h8 : step H s7 (.handlerEnds n .ok) = some (setPhase s7 n (.returned k), [.ended n .ok]) := by
    simp only [step, ht, hph]
  have t8 : (setPhase s7 n (.returned k)).tasks[n]? = some { t with phase := .returned k } := by
    rw [getElem?_setPhase, if_pos rfl, ht]; rfl
  have l8 : (setPhase s7 n (.returned k)).lock = s7.lock := rfl
  have pz := (exec_inv x7).lock.1
  generalize setPhase s7 n (.returned k) = s8 at h8 t8 l8
  have h9 : step H s8 (.lockAgain n) =
      some (setPhase { s8 with lock := { s8.lock with owner := some n } } n (.lockedAgain k), []) := by
    simp [step, t8, acquire, l8, l7, pz]
  have t9 : (setPhase { s8 with lock := { s8.lock with owner := some n } } n (.lockedAgain k)).tasks[n]? =
      some { t with phase := .lockedAgain k } := by
    rw [getElem?_setPhase, if_pos rfl]; rw [show _ = _ from t8]; rfl
  generalize setPhase { s8 with lock := { s8.lock with owner := some n } } n (.lockedAgain k) = s9 at h9 t9
  have h10 : step H s9 (.remove n) = some (release (setPhase { s9 with undergoing := removeKey s9.undergoing k } n .finished),
      [.released n k]) := by
    simp only [step, t9]
  exact ⟨_, steps_append hsteps (.cons _ _ _ _ _ _ _ h8 (.cons _ _ _ _ _ [] _ h9 (.cons _ _ _ _ _ _ [] h10 (.nil _)))), rfl⟩

/-- **C73** There is no protection against replays, and no limit: from every state in which the server runs, the lock is
free and no request with the key is in progress, copies of one acceptable datagram, sent one after the other from the same
address, are all handled. For every `n` the handler can be called `n` times with the same request; nothing needs to be
done but sending the datagram `n` times, which takes no knowledge of the secret. -/
theorem C73_replays (n : Nat) {H : Hash} {s : State} {tr : List Event} (h : Exec H s tr) (d secret : Bytes)
    (rem loc : SocketAddr) (p : Packet) (hrun : runningAfter tr = true)
    (hacc : Acceptable H (skipAfter tr) (d.take (bufferSizeAfter tr)) secret p)
    (hfree : ∀ j, .admitted j ⟨rem.display, p.identifier⟩ ∈ tr → .released j ⟨rem.display, p.identifier⟩ ∈ tr)
    (hlock : s.lock.owner = none) :
    ∃ as s' es, Steps H s as s' es ∧ es.filterMap startedRequest = List.replicate n ⟨loc, rem, p⟩ ∧
      (∀ a ∈ as, ∀ d' rem' loc', a = .recv d' rem' loc' → d' = d ∧ rem' = rem ∧ loc' = some loc) ∧
      (∀ a ∈ as, ∀ i ans, a = .secret i ans → ans = .ok secret) := by
  induction n generalizing s tr with
  | zero => exact ⟨[], s, [], .nil s, rfl, by simp, by simp⟩
  | succ n ih =>
    obtain ⟨s1, h1, l1⟩ := one_copy h d secret rem loc p hrun hacc hfree hlock
    have x1 := exec_steps h h1
    generalize hi : s.tasks.length = i at h1 x1
    obtain ⟨as, s2, es, h2, h3, h4, h5⟩ := ih x1
      (by simpa [runningAfter, List.foldl_append] using hrun)
      (by simpa [skipAfter, bufferSizeAfter, List.foldl_append] using hacc) (by
        intro j hj
        rcases List.mem_append.1 hj with hj | hj
        · exact List.mem_append_left _ (hfree j hj)
        · simp at hj
          subst hj
          simp) l1
    refine ⟨_, s2, _, steps_append h1 h2, ?_, ?_, ?_⟩
    · rw [List.filterMap_append, h3, List.replicate_succ]
      rfl
    · intro a ha
      rcases List.mem_append.1 ha with ha | ha
      · intro d' rem' loc' e
        subst e
        simp [oneCopy] at ha
        exact ha
      · exact h4 a ha
    · intro a ha
      rcases List.mem_append.1 ha with ha | ha
      · intro j ans e
        subst e
        simp [oneCopy] at ha
        exact ha.2
      · exact h5 a ha

/-- **C73** Between two calls of the handler for copies from one endpoint the first one has to return: two that are both
still running are the same. -/
theorem C73_one_at_a_time {H : Hash} {s : State} {tr : List Event} (h : Exec H s tr) (i j : Nat) (r r' : Request)
    (d secret : Bytes) (rem rem' loc loc' : SocketAddr) (di : .received i d rem loc ∈ tr) (dj : .received j d rem' loc' ∈ tr)
    (si : .secret i rem (.ok secret) ∈ tr) (sj : .secret j rem' (.ok secret) ∈ tr) (hi : .started i r ∈ tr)
    (hend : ∀ o, .ended i o ∉ tr) (hse : sameEndpoint r.remoteAddr r'.remoteAddr) (hj : .started j r' ∈ tr)
    (hend' : ∀ o, .ended j o ∉ tr) : i = j :=
  C54_one_handler_per_endpoint h i j r r' hi hend hj hend' hse
    (by rw [C70_same_packet h i j r r' d secret rem loc rem' loc' hi hj di dj si sj])

/-- The hypotheses of `C73_replays`: a server that has just been started, and a request without attributes. -/
example : ∃ s tr, Exec Md5.md5 s tr ∧ runningAfter tr = true ∧
    Acceptable Md5.md5 (skipAfter tr) ((bareRequest 7 (List.replicate 16 9)).take (bufferSizeAfter tr)) [1]
      ⟨.AccessRequest, 7, List.replicate 16 9, [1], []⟩ ∧ (∀ j k, .admitted j k ∉ tr) ∧ s.lock.owner = none := by
  refine ⟨_, _, .step _ _ _ _ .run .init rfl, rfl, ⟨by decide, by decide +kernel, fun _ => by decide +kernel⟩, by simp, rfl⟩

/-- And of `C73_one_at_a_time`: the second task of this execution is a copy of the first. -/
example : ∃ s tr r, Exec Md5.md5 s tr ∧ .started 0 r ∈ tr ∧ (∀ o, .ended 0 o ∉ tr) := by
  have key : (match execute Md5.md5 listen (demoActions.take 12) with
    | some (_, tr) => tr.any (fun e => match e with | .started 0 _ => true | _ => false) &&
        tr.all (fun e => match e with | .ended .. => false | _ => true)
    | none => false) = true := by decide +kernel
  split at key
  · rename_i s tr h
    simp only [Bool.and_eq_true, List.any_eq_true, List.all_eq_true] at key
    obtain ⟨⟨e, he, hm⟩, hall⟩ := key
    split at hm
    · exact ⟨s, tr, _, by simpa using exec_steps .init (execute_steps _ _ _ _ h), he, fun o ho => by simpa using hall _ ho⟩
    · cases hm
  · cases key

end Radius

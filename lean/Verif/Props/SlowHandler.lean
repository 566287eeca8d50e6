import Verif.Props.Handler
import Verif.Props.NetworkProgress
/-! # C72: the handler of the time-out test, and servers whose handlers do not panic -/
namespace Radius
open Spec Server

open Example in
/-- **C72** The handler of the time-out test answers every request a server can give it, of any code and with any
attributes: an Access-Reject of exactly 20 bytes, to the sender, authentic for the request, with its identifier. It never
panics. -/
theorem C72_long_handler (H : Hash) (ck : Bool) (d secret : Bytes) (r : Request) (hs : secret ≠ [])
    (hd : Packet.decode d secret = .ok r.packet) :
    ∃ resp, longHandler H ck r = .ok (r.remoteAddr, resp) ∧ resp.length = 20 ∧
      Packet.isAuthenticResponse H resp d secret = .ok true ∧
      ∃ q, Packet.decode resp secret = .ok q ∧ q.code = .AccessReject ∧ q.identifier = r.packet.identifier ∧
        q.attributes = [] := by
  let q0 := r.packet.makeResponsePacket .AccessReject
  have hq0r : Reachable q0 := .makeResponsePacket _ _ (.decode d secret _ hd)
  have hattrs : q0.attributes = [] := rfl
  have hcode : authRule (Code.toU8 .AccessReject) = some .chained := by decide
  obtain ⟨resp, hresp⟩ := ((C07_encode_outcome H ck q0 hq0r).2
    (by rw [hattrs]; simp) (by rw [hattrs]; simp [wireSize])).2.2 (by rw [hattrs]; simp [wireSize])
      (by show authRule (Code.toU8 .AccessReject) ≠ none; rw [hcode]; simp)
  have hd2 := (C04_encode_decode H ck q0 resp hq0r (by rw [hattrs]; simp [wireSize]) hresp).1
  obtain ⟨ha1, _, _⟩ := C11_responses_authentic H ck d secret r.packet .AccessReject [] resp hd hcode hs hresp
  have hsec : q0.secret = secret := ((C02_decode_iff_wire d secret r.packet).1 hd).1
  refine ⟨resp, ?_, ?_, ha1, { q0 with authenticator := authenticatorOf resp }, hsec ▸ hd2, rfl, rfl, rfl⟩
  · unfold longHandler
    simp only [Request.getPacket, Request.getRemoteAddr]
    rw [show r.packet.makeResponsePacket .AccessReject = q0 from rfl, hresp]
    rfl
  · have := (C06_length_field_partial H ck q0 resp hq0r (by rw [hattrs]; simp [wireSize]) hresp).2.2.2
    rw [hattrs] at this; simpa [wireSize] using this

open Example in
/-- **C72** The caller, whatever it asked for, gets the rejection if it is still waiting, and a time-out error if it has
configured one and nothing arrives in time. -/
theorem C72_caller (H : Hash) (ck : Bool) (c : Client) (env : ClientEnv) (remote : SocketAddr) (r : Request) (resp : Bytes)
    (d : Bytes) (p : Packet) (he : p.encode H ck = .ok d) (hs : p.secret ≠ []) (hd : Packet.decode d p.secret = .ok r.packet)
    (hr : longHandler H ck r = .ok (r.remoteAddr, resp)) (hp : Prepared env) (hsend : env.send = .ready (.ok ())) :
    (env.recv = .ready (.ok resp) → ∃ q, (c.sendPacket H ck env remote p).result = .ready (.ok q) ∧
      q.code = .AccessReject ∧ q.identifier = r.packet.identifier ∧ q.attributes = []) ∧
    (env.recv = .pending → c.socketTimeout ≠ none →
      (c.sendPacket H ck env remote p).result = .ready (.err .SocketTimeoutError)) ∧
    (env.recv = .pending → c.socketTimeout = none → (c.sendPacket H ck env remote p).result = .pending) := by
  obtain ⟨resp', h1, h2, _, q, h3, h4, h5, h6⟩ := C72_long_handler H ck d p.secret r hs hd
  have hresp : resp' = resp := by
    have := h1.symm.trans hr
    exact congrArg Prod.snd (Out.ok.inj this)
  subst hresp
  obtain ⟨_, _, _, _, _, _, f7, _, f9, _, f11⟩ := C45_result_identifies_stage H ck c env remote p _ rfl
  refine ⟨fun hv => ⟨q, (f9 q).2 ⟨hp, ⟨d, he⟩, hsend, resp', hv, ?_⟩, h4, h5, h6⟩, fun hv ht => ?_, fun hv ht => ?_⟩
  · rw [List.take_of_length_le (by omega)]; exact h3
  · exact f7.2 ⟨hp, ⟨d, he⟩, ht, .inr ⟨hsend, hv⟩⟩
  · exact f11.2 (.inr (.inr ⟨hp, ⟨d, he⟩, ht, .inr ⟨hsend, hv⟩⟩))

/-- **C72** In a server whose handlers panic only if the handler of the time-out test does — that is, never — no key stays
behind: when every handler that was called has returned and no internal step is left, no request is in progress and the
lock is free. -/
theorem C72_nothing_left {H : Hash} {ck : Bool} {s : State} {tr : List Event} (h : Exec H s tr)
    (hpanic : ∀ i r, .started i r ∈ tr → .ended i .panic ∈ tr → Example.longHandler H ck r = .panic)
    (hended : ∀ i r, .started i r ∈ tr → ∃ o, .ended i o ∈ tr) (hq : ∀ a, internal a = true → step H s a = none) :
    s.undergoing = [] ∧ s.lock.owner = none := by
  have h0 := quiescent h hq
  refine ⟨?_, unlocked_of_no_pending h h0⟩
  apply List.eq_nil_iff_forall_not_mem.2
  intro k hk
  obtain ⟨j, hadm, hrel⟩ := ((exec_inv h).keys.1 k).1 hk
  obtain ⟨pre, d, rem, loc, post, e⟩ := received_of_event h hadm rfl
  obtain ⟨secret, p, hsec, hacc, rfl⟩ := C38_keys h j d rem loc k e (.inl hadm)
  have hst : .started j ⟨loc, rem, p⟩ ∈ tr := by
    have := C38_every_schedule h j d secret rem loc p e hsec hacc (.nil s) hq
    rw [List.append_nil] at this
    refine this.resolve_left ?_
    intro hdup
    obtain ⟨t, rest, _, _, _, _, _, h1, _, _, h4⟩ := task_facts h e
    rw [← mem_eventsOf (i := j) rfl, h1] at hdup hadm
    generalize t.phase = ph at h4
    cases h4 <;> simp at hdup hadm
  obtain ⟨o, ho⟩ := hended j _ hst
  have hne : o ≠ .panic := by
    rintro rfl
    have hp := hpanic j _ hst ho
    obtain ⟨resp, h1, _⟩ := C72_long_handler H ck _ secret ⟨loc, rem, p⟩ hacc.1 hacc.2.1
    rw [h1] at hp; cases hp
  have := C39_every_schedule h j o _ hst ho hne (.nil s) hq
  rw [List.append_nil] at this
  exact hrel this

/-- **C72** So whatever was sent to such a server before, by whomever, it then handles the next acceptable request from any
address with any identifier. -/
theorem C72_next_handled {H : Hash} {ck : Bool} {s : State} {tr : List Event} (h : Exec H s tr)
    (hpanic : ∀ i r, .started i r ∈ tr → .ended i .panic ∈ tr → Example.longHandler H ck r = .panic)
    (hended : ∀ i r, .started i r ∈ tr → ∃ o, .ended i o ∈ tr) (hq : ∀ a, internal a = true → step H s a = none)
    (hrun : runningAfter tr = true) (d secret : Bytes) (rem loc : SocketAddr) (p : Packet)
    (hacc : Acceptable H (skipAfter tr) (d.take (bufferSizeAfter tr)) secret p) :
    ∃ as s' es, Steps H s as s' es ∧ .started s.tasks.length ⟨loc, rem, p⟩ ∈ es := by
  obtain ⟨h1, h2⟩ := C72_nothing_left h hpanic hended hq
  obtain ⟨s', hs⟩ := C39_identifier_reusable h d secret rem loc p hrun hacc (by
    intro j hj
    apply Classical.byContradiction
    intro hr
    have := ((exec_inv h).keys.1 _).2 ⟨j, hj, hr⟩
    rw [h1] at this; cases this) h2
  exact ⟨_, s', _, hs, by simp⟩

/-- Two requests from one address, the second twice; the first is answered, sending the second answer fails. -/
def slowActions : List Action :=
  let d : Bytes := [1, 7, 0, 20, 0, 1, 2, 3, 4, 5, 6, 7, 8, 9, 10, 11, 12, 13, 14, 15]
  let d' : Bytes := [1, 8, 0, 20, 0, 1, 2, 3, 4, 5, 6, 7, 8, 9, 10, 11, 12, 13, 14, 15]
  let a : SocketAddr := .v4 ⟨10, 0, 0, 1⟩ 5000
  [.run, .recv d a (some a), .recv d' a (some a), .recv d' a (some a),
   .secret 1 (.ok [1]), .secret 0 (.ok [1]), .secret 2 (.ok [1]),
   .lock 0, .check 0, .insert 0, .invoke 0, .lock 1, .check 1, .insert 1, .invoke 1, .lock 2, .check 2,
   .handlerEnds 0 .ok, .handlerEnds 1 .err, .lockAgain 0, .remove 0, .lockAgain 1, .remove 1]

/-- The hypotheses of `C72_nothing_left` and `C72_next_handled`: an execution with two handlers, a duplicate, and requests
on which the other example handlers panic. -/
example : ∃ s tr, Exec Md5.md5 s tr ∧ (∃ r, .started 0 r ∈ tr) ∧ (∃ k, .duplicate 2 k ∈ tr) ∧
    (∀ i r, .started i r ∈ tr → .ended i .panic ∈ tr → Example.longHandler Md5.md5 true r = .panic) ∧
    (∀ i r, .started i r ∈ tr → ∃ o, .ended i o ∈ tr) ∧ (∀ a, internal a = true → step Md5.md5 s a = none) ∧
    runningAfter tr = true := by
  have key : (match execute Md5.md5 listen slowActions with
    | some (s, tr) => decide (pendingSteps s = 0) && decide (.ended 0 .ok ∈ tr) && decide (.ended 1 .err ∈ tr) &&
        tr.any (fun e => match e with | .started 0 _ => true | _ => false) &&
        tr.any (fun e => match e with | .duplicate 2 _ => true | _ => false) &&
        tr.all (fun e => match e with | .started i _ => decide (i < 2) | .ended _ o => decide (o ≠ .panic) | _ => true) &&
        runningAfter tr
    | none => false) = true := by decide +kernel
  split at key
  · rename_i s tr h
    simp only [Bool.and_eq_true, decide_eq_true_eq, List.any_eq_true, List.all_eq_true] at key
    obtain ⟨⟨⟨⟨⟨⟨h0, h1⟩, h2⟩, e, he, hm⟩, e', he', hm'⟩, hall⟩, hrun⟩ := key
    refine ⟨s, tr, by simpa using exec_steps .init (execute_steps _ _ _ _ h), ?_, ?_, ?_, ?_, quiet_of_no_pending h0, hrun⟩
    · split at hm
      · exact ⟨_, he⟩
      · cases hm
    · split at hm'
      · exact ⟨_, he'⟩
      · cases hm'
    · intro i r _ hp
      have := hall _ hp
      simp at this
    · intro i r hst
      have := hall _ hst
      simp only [decide_eq_true_eq] at this
      match i, this with
      | 0, _ => exact ⟨_, h1⟩
      | 1, _ => exact ⟨_, h2⟩
  · cases key

/-- A request without attributes: the handlers of the other examples panic, this one answers. -/
example : let r : Request := ⟨.v4 ⟨127, 0, 0, 1⟩ 1812, .v4 ⟨10, 0, 0, 1⟩ 5000, ⟨.AccessRequest, 7, List.replicate 16 9, [1], []⟩⟩
    Packet.decode ([1, 7, 0, 20] ++ List.replicate 16 9) [1] = .ok r.packet ∧
    Example.handler Md5.md5 true false r = .panic ∧
    (match Example.longHandler Md5.md5 true r with
      | .ok (a, bs) => decide (a = .v4 ⟨10, 0, 0, 1⟩ 5000 ∧ bs.take 4 = [3, 7, 0, 20])
      | _ => false) = true := by decide +kernel

end Radius

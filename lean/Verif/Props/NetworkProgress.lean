import Verif.Props.Net
import Verif.Props.Network
/-! # C69: whatever has happened, a client with an address of its own can still get its answer; C70: repeated requests -/
namespace Radius
open Spec Server Network

/-- Internal steps change neither the settings nor whether the server runs. -/
theorem internal_settings {H : Hash} {s s' : State} {a : Action} {es : List Event} (ha : internal a = true)
    (h : step H s a = some (s', es)) (tr : List Event) :
    bufferSizeAfter (tr ++ es) = bufferSizeAfter tr ∧ skipAfter (tr ++ es) = skipAfter tr ∧
    runningAfter (tr ++ es) = runningAfter tr := by
  cases a <;> simp only [internal] at ha <;> first | (cases ha; done) | skip
  all_goals
    simp only [step, acquire] at h
    repeat' split at h
    all_goals first | (cases h; done) | skip
    all_goals
      obtain ⟨rfl, rfl⟩ := Prod.mk.inj (Option.some.inj h)
      simp [bufferSizeAfter, skipAfter, runningAfter, List.foldl_append]

theorem internal_plain {a : Action} (h : internal a = true) : plain a = true := by
  cases a <;> first | rfl | cases h

/-- Internal steps of the server in a world. -/
theorem reaches_internal {H : Hash} {ck echo : Bool} {Others : SocketAddr → Bytes → Prop} {as : List Action} :
    ∀ {w : World} {s : State} {es : List Event}, Reaches H ck echo Others w → (∀ a ∈ as, internal a = true) →
      Steps H w.server as s es →
      Reaches H ck echo Others { w with server := s, trace := w.trace ++ es } ∧
      bufferSizeAfter (w.trace ++ es) = bufferSizeAfter w.trace ∧ skipAfter (w.trace ++ es) = skipAfter w.trace ∧
      runningAfter (w.trace ++ es) = runningAfter w.trace := by
  induction as with
  | nil =>
    intro w s es h _ hst
    cases hst
    simpa using h
  | cons a as ih =>
    intro w s es h ha hst
    cases hst with
    | cons _ s1 _ _ _ e1 e2 h1 h2 =>
      have hp := ha a (List.mem_cons_self ..)
      have r1 := Reaches.serve w a s1 e1 h (internal_plain hp) h1
      obtain ⟨r2, k1, k2, k3⟩ := ih r1 (fun b hb => ha b (List.mem_cons_of_mem _ hb)) h2
      obtain ⟨m1, m2, m3⟩ := internal_settings hp h1 w.trace
      simp only [List.append_assoc] at r2 k1 k2 k3
      simp only [← List.append_assoc] at k1 k2 k3
      rw [m1] at k1
      rw [m2] at k2
      rw [m3] at k3
      simp only [List.append_assoc] at k1 k2 k3
      exact ⟨r2, k1, k2, k3⟩

/-- With nothing pending, nobody holds the lock. -/
theorem unlocked_of_no_pending {H : Hash} {s : State} {tr : List Event} (h : Exec H s tr) (h0 : pendingSteps s = 0) :
    s.lock.owner = none := by
  cases ho : s.lock.owner with
  | none => rfl
  | some j =>
    obtain ⟨t, ht, hp⟩ := ((exec_inv h).lock.2 j).1 ho
    have := pending_le s j t ht
    rw [h0] at this
    cases hph : t.phase <;> rw [hph] at hp this <;> simp [pending, Phase.owns] at hp this

open Example in
/-- **C69** In every world that can come about — whatever clients, other hosts, network, scheduler and panicking handlers
have done — a running server still answers: if the example client makes a new call, from an endpoint that neither an
earlier call nor another host uses, things can go on so that this call returns the verdict on its own request. The
datagram has at most 405 bytes (`C52_client_side`); it must fit into the receive buffer. -/
theorem C69_still_answers {H : Hash} {ck echo : Bool} {Others : SocketAddr → Bytes → Prop} {w : World}
    (h : Reaches H ck echo Others w) (hrun : runningAfter w.trace = true) (c : Call) (loc : SocketAddr)
    (rng : Nat → UInt8) (u : String) (pw : Bytes) (hreq : Example.request H rng u pw = .ok c.packet)
    (he : c.packet.encode H ck = .ok c.data) (hv : ValidUtf8 (beforeZero pw))
    (hbuf : c.data.length ≤ bufferSizeAfter w.trace)
    (hcalls : ∀ c' ∈ w.calls, ¬ sameEndpoint c'.addr c.addr) (hothers : ∀ a d, Others a d → ¬ sameEndpoint a c.addr) :
    ∃ w' q, Reaches H ck echo Others w' ∧ w'.calls = w.calls ++ [c] ∧ w'.returned = w.returned ++ [(w.calls.length, q)] ∧
      q.identifier = c.packet.identifier ∧
      q.code = (if u = "admin" ∧ beforeZero pw = textBytes "p@ssw0rd" then .AccessAccept else .AccessReject) := by
  -- the request
  have hreach := request_reachable hreq
  have hl : pw.length ≤ 128 := by
    apply Nat.le_of_not_lt
    intro hlt
    rw [(built H rng u pw).2 hlt] at hreq; cases hreq
  obtain ⟨cc, hcl, _, hreq', _⟩ := (built H rng u pw).1 hl
  have hpe := Out.ok.inj (hreq.symm.trans hreq')
  have hu : (textBytes u).length ≤ 253 := by
    apply Nat.le_of_not_lt
    intro hlt
    have := (C52_client_side H ck rng u pw).2.1 hlt c.packet hreq
    rw [he] at this; cases this
  have hsz : wireSize c.packet.attributes < 65516 := by rw [hpe]; simp [wireSize]; omega
  have hps : c.packet.secret = SECRET := by rw [hpe]
  have hdec : Packet.decode c.data SECRET = .ok c.packet := by
    have := (C04_encode_decode H ck c.packet c.data hreach hsz he).2 (.inl (by rw [hpe]))
    rwa [hps] at this
  -- everything pending is done first
  obtain ⟨as, s1, es1, ha, hst, h0⟩ := drain _ (reaches_inv h).exec (Nat.le_refl _)
  obtain ⟨r1, k1, k2, k3⟩ := reaches_internal h ha hst
  have inv1 := reaches_inv r1
  have hexec : Exec H s1 (w.trace ++ es1) := inv1.exec
  have hlock : s1.lock.owner = none := unlocked_of_no_pending hexec h0
  have hacc : Acceptable H (skipAfter (w.trace ++ es1)) (c.data.take (bufferSizeAfter (w.trace ++ es1))) SECRET c.packet := by
    rw [k1, List.take_of_length_le hbuf]
    refine ⟨SECRET_ne, hdec, fun _ => ?_⟩
    have := C10_own_requests_authentic H ck c.packet c.data hreach (.inl (by rw [hpe]; rfl)) (by rw [hps]; exact SECRET_ne) he
    rwa [hps] at this
  have hfree : ∀ j, .admitted j ⟨c.addr.display, c.packet.identifier⟩ ∈ w.trace ++ es1 →
      .released j ⟨c.addr.display, c.packet.identifier⟩ ∈ w.trace ++ es1 := by
    intro j hj
    exfalso
    obtain ⟨pre, d, rem, loc', post, e⟩ := received_of_event hexec hj rfl
    obtain ⟨_, p', _, _, hk⟩ := C38_keys hexec j d rem loc' _ e (.inl hj)
    rw [RequestKey.mk.injEq] at hk
    have hse := (C54_address_text rem c.addr).1 hk.1.symm
    rcases inv1.received j d rem loc' (by show _ ∈ w.trace ++ es1; rw [e]; simp) with ⟨c', hc', rfl, _⟩ | ho
    · exact hcalls c' hc' hse
    · exact hothers rem d ho hse
  obtain ⟨s7, hsteps⟩ := C39_identifier_reusable hexec c.data SECRET c.addr loc c.packet (by rw [k3]; exact hrun) hacc hfree hlock
  -- the call
  have r2 := Reaches.call _ c (answering []) r1 (by
    have := (C44_sends_request_once H ck c.client (answering []) c.remote c.packet).2 c.data ⟨rfl, rfl⟩ he
    generalize (c.client.sendPacket H ck (answering []) c.remote c.packet).trace = tr at this
    induction tr with
    | nil => simp [sentOf] at this
    | cons e tr ih =>
      cases e with
      | send to data =>
        simp only [sentOf, List.cons.injEq, Prod.mk.injEq] at this
        obtain ⟨⟨rfl, rfl⟩, _⟩ := this
        simp
      | _ => exact List.mem_cons_of_mem _ (ih this))
  -- the server
  generalize hn : s1.tasks.length = n at hsteps
  have x7 := exec_steps hexec hsteps
  generalize hev : [Event.received n c.data c.addr loc, .secret n c.addr (.ok SECRET),
    .admitted n ⟨c.addr.display, c.packet.identifier⟩, .started n ⟨loc, c.addr, c.packet⟩] = evs at hsteps
  cases hsteps with | cons _ a1 _ _ _ f1 g1 t1 hsteps =>
  cases hsteps with | cons _ a2 _ _ _ f2 g2 t2 hsteps =>
  cases hsteps with | cons _ a3 _ _ _ f3 g3 t3 hsteps =>
  cases hsteps with | cons _ a4 _ _ _ f4 g4 t4 hsteps =>
  cases hsteps with | cons _ a5 _ _ _ f5 g5 t5 hsteps =>
  cases hsteps with | cons _ a6 _ _ _ f6 g6 t6 hsteps =>
  cases hsteps
  have r3 := Reaches.deliver _ c (some loc) a1 f1 r2 (by simp) t1
  obtain ⟨tk, htk⟩ : ∃ tk, a1.tasks[n]? = some tk := by
    cases hx : a1.tasks[n]? with
    | some tk => exact ⟨tk, rfl⟩
    | none => simp [step, hx] at t2
  have r4 := Reaches.fetch _ n tk a2 f2 r3 htk t2
  have r5 := Reaches.serve _ (.lock n) a3 f3 r4 rfl t3
  have r6 := Reaches.serve _ (.check n) a4 f4 r5 rfl t4
  have r7 := Reaches.serve _ (.insert n) a5 f5 r6 rfl t5
  have r8 := Reaches.serve _ (.invoke n) s7 f6 r7 rfl t6
  simp only [List.append_assoc, List.append_nil] at r8 hev
  rw [← hev] at r8
  -- its handler
  obtain ⟨t, rest, ht, _, _, _, _, _, _, hrest, hhist⟩ := task_facts x7 (pre := w.trace ++ es1) (i := n) rfl
  have hph : ∃ p k, t.phase = .handling p k := by
    have e : rest = [.secret n c.addr (.ok SECRET), .admitted n ⟨c.addr.display, c.packet.identifier⟩,
        .started n ⟨loc, c.addr, c.packet⟩] := by
      rw [← hrest]; simp [eventsOf, taskOf]
    clear hrest
    generalize t.phase = ph at hhist
    cases hhist with
    | handling => exact ⟨_, _, rfl⟩
    | _ => simp at e
  obtain ⟨p, k, hph⟩ := hph
  have hend : step H s7 (.handlerEnds n .ok) = some (setPhase s7 n (.returned k), [.ended n .ok]) := by
    simp only [step, ht, hph]
  obtain ⟨resp, hh, _, hcl⟩ := (C52_handler_answer H ck echo rng u pw c.data c.packet hreq he ⟨loc, c.addr, c.packet⟩ hdec).1 hv
  have r9 := Reaches.answer _ n ⟨loc, c.addr, c.packet⟩ c.addr resp _ _ r8 (by simp) hh hend
  -- the client
  obtain ⟨q, hq, hid, hcode, _⟩ := hcl c.client c.remote
  have r10 := Reaches.receive _ w.calls.length c (answering resp) resp q r9 (by simp) (by
    intro q' hm
    obtain ⟨c', d, hc', _⟩ := (reaches_inv h).returned _ q' hm
    have := (List.getElem?_eq_some_iff.1 hc').1
    omega) (by simp) rfl hq
  exact ⟨_, q, r10, rfl, rfl, hid, hcode⟩

/-- A request without attributes. -/
def bare69 : Bytes :=
  match (Packet.new (fun _ => 7) .AccessRequest Example.SECRET).encode Md5.md5 true with
  | .ok d => d
  | _ => []

/-- Another host makes the handler panic and sends a second request that is being handled. -/
def hostileRun : List Move :=
  [.serve .run, .stranger hostS bare69 (some hostS), .fetch 0, .serve (.lock 0), .serve (.check 0), .serve (.insert 0),
   .serve (.invoke 0), .panics 4, .stranger hostS bare69 (some hostS), .fetch 1, .serve (.lock 1)]

/-- Non-vacuity: a world in which another host has made the handler panic and its key is blocked, the lock is held by a
task, and the server runs on. The request of the client fits into the default buffer, and its endpoint is unused. -/
example : ∃ w : World, Reaches Md5.md5 true false (fun a _ => ¬ sameEndpoint a hostA) w ∧ runningAfter w.trace = true ∧
    .ended 0 .panic ∈ w.trace ∧ w.server.lock.owner = some 1 ∧ w.calls = [] ∧ 405 ≤ bufferSizeAfter w.trace := by
  have key : (match World.play Md5.md5 true false ⟨listen, [], [], [], []⟩ hostileRun with
    | some w => decide (runningAfter w.trace = true ∧ .ended 0 .panic ∈ w.trace ∧ w.server.lock.owner = some 1 ∧
        405 ≤ bufferSizeAfter w.trace) && w.calls.isEmpty
    | none => false) = true := by decide +kernel
  split at key
  · next w hw =>
    simp only [Bool.and_eq_true, decide_eq_true_eq, List.isEmpty_iff] at key
    obtain ⟨⟨h1, h2, h3, h4⟩, h5⟩ := key
    refine ⟨w, play_reaches .start ?_ hw, h1, h2, h3, h5, h4⟩
    intro a d loc hm
    simp [hostileRun] at hm
    rcases hm with ⟨rfl, _⟩ | ⟨rfl, _⟩ <;> simp [hostS, hostA, sameEndpoint]
  · cases key

/-- **C70** When copies of one datagram are both handled — at different times, after changes of the buffer size, from whatever
addresses — with the same secret, the handlers see the same packet. -/
theorem C70_same_packet {H : Hash} {s : State} {tr : List Event} (h : Exec H s tr) (i j : Nat) (r r' : Request) (d secret : Bytes)
    (rem loc rem' loc' : SocketAddr) (hi : .started i r ∈ tr) (hj : .started j r' ∈ tr)
    (di : .received i d rem loc ∈ tr) (dj : .received j d rem' loc' ∈ tr)
    (si : .secret i rem (.ok secret) ∈ tr) (sj : .secret j rem' (.ok secret) ∈ tr) : r.packet = r'.packet := by
  have key : ∀ i (r : Request) (rem loc : SocketAddr), .started i r ∈ tr → .received i d rem loc ∈ tr →
      .secret i rem (.ok secret) ∈ tr → Packet.decode d secret = .ok r.packet := by
    intro i r rem loc hi di si
    obtain ⟨pre, d', post, secret', rest, htr, hacc, hpre, hpost, hrest⟩ := started_facts h hi
    have all : eventsOf i tr = .received i d' r.remoteAddr r.localAddr ::
        .secret i r.remoteAddr (.ok secret') :: .admitted i (keyOf r.remoteAddr r.packet) :: .started i r :: rest := by
      rw [← hpost, htr]
      simp only [eventsOf, List.filter_append] at hpre ⊢
      rw [hpre]
      simp [taskOf]
    rw [← mem_eventsOf (i := i) rfl, all] at di si
    have hd : d = d' := by
      rcases hrest with rfl | rfl | ⟨o, _, rfl⟩ | ⟨o, _, rfl⟩ <;> simp at di <;> exact di.1
    have hs : secret = secret' := by
      rcases hrest with rfl | rfl | ⟨o, _, rfl⟩ | ⟨o, _, rfl⟩ <;> simp at si <;> exact si.2
    subst hd hs
    have := (C58_padding_and_truncation _ _ _ hacc.2.1).1 (d.drop (bufferSizeAfter pre))
    rwa [List.take_append_drop] at this
  exact Out.ok.inj ((key i r rem loc hi di si).symm.trans (key j r' rem' loc' hj dj sj))

/-- **C70** So the example server answers every copy of a request that it handles with the same bytes, each to the address the
copy came from, or panics on every copy. -/
theorem C70_same_answer {H : Hash} {s : State} {tr : List Event} (h : Exec H s tr) (ck echo : Bool) (i j : Nat) (r r' : Request)
    (d secret : Bytes) (rem loc rem' loc' : SocketAddr) (hi : .started i r ∈ tr) (hj : .started j r' ∈ tr)
    (di : .received i d rem loc ∈ tr) (dj : .received j d rem' loc' ∈ tr)
    (si : .secret i rem (.ok secret) ∈ tr) (sj : .secret j rem' (.ok secret) ∈ tr) :
    (∃ data, Example.handler H ck echo r = .ok (rem, data) ∧ Example.handler H ck echo r' = .ok (rem', data)) ∨
    (Example.handler H ck echo r = .panic ∧ Example.handler H ck echo r' = .panic) := by
  have hp := C70_same_packet h i j r r' d secret rem loc rem' loc' hi hj di dj si sj
  have hrem : ∀ i (r : Request) (rem loc : SocketAddr), .started i r ∈ tr → .received i d rem loc ∈ tr → r.remoteAddr = rem := by
    intro i r rem loc hi di
    obtain ⟨pre, d', post, secret', rest, htr, _, hpre, hpost, hrest⟩ := started_facts h hi
    have all : eventsOf i tr = .received i d' r.remoteAddr r.localAddr ::
        .secret i r.remoteAddr (.ok secret') :: .admitted i (keyOf r.remoteAddr r.packet) :: .started i r :: rest := by
      rw [← hpost, htr]
      simp only [eventsOf, List.filter_append] at hpre ⊢
      rw [hpre]
      simp [taskOf]
    rw [← mem_eventsOf (i := i) rfl, all] at di
    rcases hrest with rfl | rfl | ⟨o, _, rfl⟩ | ⟨o, _, rfl⟩ <;> simp at di <;> exact di.2.1.symm
  obtain ⟨pre, d', post, secret', rest, htr, hacc, _⟩ := started_facts h hi
  have hrp : ∃ dd, Packet.decode dd secret' = .ok r.packet := ⟨_, hacc.2.1⟩
  obtain ⟨dd, hdd⟩ := hrp
  have c1 := C61_handler_exact H ck echo dd secret' r hacc.1 hdd
  have c2 := C61_handler_exact H ck echo dd secret' r' hacc.1 (by rw [← hp]; exact hdd)
  by_cases hA : ∃ u s, Answerable H r.packet u s
  · obtain ⟨u, t, hut⟩ := hA
    obtain ⟨resp, e1, _⟩ := c1.1 u t hut
    refine .inl ⟨resp, by rw [e1, hrem i r rem loc hi di], ?_⟩
    have hsame : Example.handler H ck echo r' = (Example.handler H ck echo { r with remoteAddr := r'.remoteAddr, localAddr := r'.localAddr }) := by
      congr 1
      cases r; cases r'; simp only at hp; subst hp; rfl
    rw [hsame]
    have hto : ∀ (to lc : SocketAddr), Example.handler H ck echo { r with remoteAddr := to, localAddr := lc } =
        (match Example.handler H ck echo r with | .ok (_, b) => .ok (to, b) | .err e => .err e | .panic => .panic) := by
      intro to lc
      unfold Example.handler
      simp only [Request.getPacket, Request.getRemoteAddr]
      generalize @Example.unwrap2 String (Gen.lookup H Example.USER_NAME_TYPE r.packet .string) = x
      generalize @Example.unwrap2 Bytes (Gen.lookup H Example.USER_PASSWORD_TYPE r.packet .userPassword) = y
      cases x with
      | ok a =>
        cases y with
        | ok b =>
          simp only [Out.bind_ok]
          cases Example.unwrapUtf8 b with
          | ok b' =>
            simp only [Out.bind_ok]
            generalize Example.unwrapEncoded _ = z
            cases z <;> rfl
          | err e => cases e
          | panic => rfl
        | err e => cases e
        | panic => rfl
      | err e => cases e
      | panic => rfl
    rw [hto, e1, hrem j r' rem' loc' hj dj]
  · refine .inr ⟨c1.2 (fun u t hx => hA ⟨u, t, hx⟩), c2.2 (fun u t hx => hA ⟨u, t, ?_⟩)⟩
    rw [hp]; exact hx

/-- A request is handled, the server is stopped and started with a buffer of just the size of the request, and a copy from
another address is handled. -/
def copiesRun : List Action :=
  [.run, .recv bare69 hostA (some hostS), .secret 0 (.ok Example.SECRET), .lock 0, .check 0, .insert 0, .invoke 0,
   .shutdown, .setBufferSize 20, .run, .recv bare69 hostS (some hostS), .secret 1 (.ok Example.SECRET), .lock 1, .check 1,
   .insert 1, .invoke 1]

/-- Non-vacuity of C70. -/
example : ∃ s tr r r', Exec Md5.md5 s tr ∧ .started 0 r ∈ tr ∧ .started 1 r' ∈ tr ∧
    .received 0 bare69 hostA hostS ∈ tr ∧ .received 1 bare69 hostS hostS ∈ tr ∧
    .secret 0 hostA (.ok Example.SECRET) ∈ tr ∧ .secret 1 hostS (.ok Example.SECRET) ∈ tr := by
  have key : (match Server.execute Md5.md5 listen copiesRun with
    | some (_, tr) => (match (tr[4]? : Option Event), (tr[11]? : Option Event) with
        | some (.started 0 _), some (.started 1 _) => true
        | _, _ => false) && decide (
          Event.received 0 bare69 hostA hostS ∈ tr ∧ Event.received 1 bare69 hostS hostS ∈ tr ∧
          Event.secret 0 hostA (.ok Example.SECRET) ∈ tr ∧ Event.secret 1 hostS (.ok Example.SECRET) ∈ tr)
    | none => false) = true := by decide +kernel
  split at key
  · next s tr hex =>
    rw [Bool.and_eq_true] at key
    obtain ⟨k1, k2⟩ := key
    have k2 := of_decide_eq_true k2
    have hx := exec_steps .init (execute_steps _ _ _ _ hex)
    split at k1
    · next r r' h1 h2 =>
      exact ⟨s, tr, r, r', hx, List.mem_of_getElem? h1, List.mem_of_getElem? h2, k2.1, k2.2.1, k2.2.2.1, k2.2.2.2⟩
    · cases k1
  · cases key

end Radius

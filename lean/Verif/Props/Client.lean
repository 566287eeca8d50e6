import Verif.Spec.Client
import Verif.Props.Auth
/-! # C44–C46: the client -/
namespace Radius
open Spec Client

theorem recvInto_slice {ε : Type} (n : Nat) (d : Bytes) :
    (slice (Server.recvInto (List.replicate n 0) d).1 0 (Server.recvInto (List.replicate n 0) d).2 : Out ε Bytes) =
      .ok (d.take n) := by
  simp only [Server.recvInto, List.length_replicate, slice]
  rw [if_pos ⟨by omega, by simp⟩]
  congr 1
  simp only [List.drop_zero, Nat.sub_zero]
  rw [List.take_append_of_le_length (by simp), List.take_take]
  apply List.ext_getElem? ; intro i
  simp only [List.getElem?_take]
  by_cases h : i < d.length
  · simp only [show (i < min (min d.length n) (min d.length n)) = (i < n) from by
      apply propext; omega]
  · rw [List.getElem?_eq_none (by omega)]; simp

/-- What `request` does on a connected socket. -/
theorem request_eq (env : ClientEnv) (l remote to : SocketAddr) (data : Bytes) :
    request env ⟨l, some to⟩ data remote =
      match env.send with
      | .ready (.ok _) =>
        match env.recv with
        | .ready (.ok d) => ⟨[.send to data, .received d], .ready (.ok (d.take 65507))⟩
        | .ready (.error e) =>
          ⟨[.send to data], .ready (.err (.FailedReceivingResponseError remote.display e))⟩
        | .pending => ⟨[.send to data], .pending⟩
      | .ready (.error e) => ⟨[.send to data], .ready (.err (.FailedSendingRadiusPacketError remote.display e))⟩
      | .pending => ⟨[.send to data], .pending⟩ := by
  unfold request sendOn recvOn socketOp Run.bind Run.lift
  cases hs : env.send with
  | pending => simp
  | ready s =>
    cases s with
    | error e => simp
    | ok u =>
      cases hr : env.recv with
      | pending => simp
      | ready r =>
        cases r with
        | error e => simp
        | ok d => simp only [recvInto_slice, List.append_nil]; rfl

/-- `send_packet` once the socket is connected and the request encoded. -/
theorem sendPacket_encoded {H : Hash} {ck : Bool} (c : Client) {env : ClientEnv} (remote : SocketAddr) {p : Packet}
    {bs : Bytes} (hp : Prepared env) (he : p.encode H ck = .ok bs) :
    c.sendPacket H ck env remote p =
      (⟨[.bind (localAddrFor remote), .connect remote], .ready (.ok ())⟩ : Run Unit).bind fun _ =>
      (withTimeout c.socketTimeout (request env ⟨localAddrFor remote, some remote⟩ bs remote)
        .SocketTimeoutError).bind fun response =>
          Run.lift ((Packet.decode response p.secret).mapErr
            (fun e => .FailedDecodingRadiusResponseError e.display)) := by
  obtain ⟨h1, h2⟩ := hp
  simp only [sendPacket, socketOp, connect, h1, h2, he, Run.bind, Run.lift, Out.mapErr, Packet.getSecret, withTimeout,
    List.append_nil, List.nil_append, List.append_assoc, List.cons_append]
  cases c.connectionTimeout <;> rfl

/-- The four ways `send_packet` can go before anything is sent. -/
theorem sendPacket_unprepared {H : Hash} {ck : Bool} (c : Client) {env : ClientEnv} (remote : SocketAddr) (p : Packet) :
    (∃ (bs : Bytes), Prepared env ∧ p.encode H ck = .ok bs) ∨
    (∃ e, env.bind = .ready (.error e) ∧ c.sendPacket H ck env remote p =
      ⟨[.bind (localAddrFor remote)], .ready (.err (.FailedUdpSocketBindingError e))⟩) ∨
    (env.bind = .pending ∧ c.sendPacket H ck env remote p = ⟨[.bind (localAddrFor remote)], .pending⟩) ∨
    (∃ e, env.bind = .ready (.ok ()) ∧ env.connect = .ready (.error e) ∧ c.sendPacket H ck env remote p =
      ⟨[.bind (localAddrFor remote), .connect remote],
        .ready (.err (.FailedEstablishingUdpConnectionError remote.display e))⟩) ∨
    (env.bind = .ready (.ok ()) ∧ env.connect = .pending ∧ c.connectionTimeout ≠ none ∧
      c.sendPacket H ck env remote p =
      ⟨[.bind (localAddrFor remote), .connect remote], .ready (.err .ConnectionTimeoutError)⟩) ∨
    (env.bind = .ready (.ok ()) ∧ env.connect = .pending ∧ c.connectionTimeout = none ∧
      c.sendPacket H ck env remote p = ⟨[.bind (localAddrFor remote), .connect remote], .pending⟩) ∨
    (∃ e, Prepared env ∧ p.encode H ck = .err e ∧ c.sendPacket H ck env remote p =
      ⟨[.bind (localAddrFor remote), .connect remote],
        .ready (.err (.FailedRadiusPacketEncodingError e.display))⟩) ∨
    (Prepared env ∧ p.encode H ck = .panic ∧ c.sendPacket H ck env remote p =
      ⟨[.bind (localAddrFor remote), .connect remote], .ready .panic⟩) := by
  cases h1 : env.bind with
  | pending => 
    right; right; left
    simp [sendPacket, socketOp, Run.bind, h1]
  | ready r =>
    cases r with
    | error e =>
      right; left
      exact ⟨e, rfl, by simp [sendPacket, socketOp, Run.bind, h1]⟩
    | ok u =>
      cases h2 : env.connect with
      | pending =>
        cases h3 : c.connectionTimeout with
        | none => 
          right; right; right; right; right; left
          simp [sendPacket, socketOp, Run.bind, Run.lift, connect, withTimeout, h1, h2, h3]
        | some t =>
          right; right; right; right; left
          simp [sendPacket, socketOp, Run.bind, Run.lift, connect, withTimeout, h1, h2, h3]
      | ready r =>
        cases r with
        | error e =>
          right; right; right; left
          refine ⟨e, rfl, rfl, ?_⟩
          cases h3 : c.connectionTimeout <;>
          simp [sendPacket, socketOp, Run.bind, Run.lift, connect, withTimeout, h1, h2, h3]
        | ok u =>
          cases he : p.encode H ck with
          | ok bs => exact .inl ⟨bs, ⟨h1, h2⟩, rfl⟩
          | err e =>
            right; right; right; right; right; right; left
            refine ⟨e, ⟨h1, h2⟩, rfl, ?_⟩
            cases h3 : c.connectionTimeout <;>
            simp [sendPacket, socketOp, Run.bind, Run.lift, connect, withTimeout, h1, h2, h3, he]
          | panic =>
            right; right; right; right; right; right; right
            refine ⟨⟨h1, h2⟩, rfl, ?_⟩
            cases h3 : c.connectionTimeout <;>
            simp [sendPacket, socketOp, Run.bind, Run.lift, connect, withTimeout, h1, h2, h3, he]

/-- Everything `send_packet` can do once the request is encoded. -/
theorem sendPacket_sent {H : Hash} {ck : Bool} (c : Client) {env : ClientEnv} (remote : SocketAddr) {p : Packet}
    {bs : Bytes} (hp : Prepared env) (he : p.encode H ck = .ok bs) :
    c.sendPacket H ck env remote p =
      match env.send, env.recv with
      | .ready (.ok _), .ready (.ok d) =>
        ⟨[.bind (localAddrFor remote), .connect remote, .send remote bs, .received d],
          .ready ((Packet.decode (d.take 65507) p.secret).mapErr
            (fun e => .FailedDecodingRadiusResponseError e.display))⟩
      | .ready (.ok _), .ready (.error e) =>
        ⟨[.bind (localAddrFor remote), .connect remote, .send remote bs],
          .ready (.err (.FailedReceivingResponseError remote.display e))⟩
      | .ready (.error e), _ =>
        ⟨[.bind (localAddrFor remote), .connect remote, .send remote bs],
          .ready (.err (.FailedSendingRadiusPacketError remote.display e))⟩
      | _, _ =>
        ⟨[.bind (localAddrFor remote), .connect remote, .send remote bs],
          if c.socketTimeout = none then .pending else .ready (.err .SocketTimeoutError)⟩ := by
  rw [sendPacket_encoded c remote hp he, request_eq]
  cases c.socketTimeout <;>
  (cases env.send with
  | pending => simp [withTimeout, Run.bind]
  | ready s =>
    cases s with
    | error e => simp [withTimeout, Run.bind]
    | ok u =>
      cases env.recv with
      | pending => simp [withTimeout, Run.bind]
      | ready r =>
        cases r with
        | error e => simp [withTimeout, Run.bind]
        | ok d => simp [withTimeout, Run.bind, Run.lift])

/-- **C44** Whatever the network does, `send_packet` hands at most one datagram to the network: the encoded
request, to the given address, and only after binding, connecting and encoding succeeded. It is handed over in
that case. -/
theorem C44_sends_request_once (H : Hash) (ck : Bool) (c : Client) (env : ClientEnv) (remote : SocketAddr) (p : Packet) :
    (∀ to data, (to, data) ∈ sentOf (c.sendPacket H ck env remote p).trace →
      sentOf (c.sendPacket H ck env remote p).trace = [(to, data)] ∧ to = remote ∧ p.encode H ck = .ok data ∧
      Prepared env) ∧
    (∀ data, Prepared env → p.encode H ck = .ok data →
      sentOf (c.sendPacket H ck env remote p).trace = [(remote, data)]) := by
  have hs : ∀ data, Prepared env → p.encode H ck = .ok data →
      sentOf (c.sendPacket H ck env remote p).trace = [(remote, data)] := by
    intro data hp he
    rw [sendPacket_sent c remote hp he]
    split <;> rfl
  refine ⟨?_, hs⟩
  intro to data hm
  rcases sendPacket_unprepared (H := H) (ck := ck) c (env := env) remote p with
    ⟨bs, hp, he⟩ | ⟨e, _, h⟩ | ⟨_, h⟩ | ⟨e, _, _, h⟩ | ⟨_, _, _, h⟩ | ⟨_, _, _, h⟩ | ⟨e, _, _, h⟩ | ⟨_, _, h⟩
  · rw [hs bs hp he] at hm ⊢
    obtain ⟨rfl, rfl⟩ := Prod.mk.inj (List.mem_singleton.1 hm)
    exact ⟨rfl, rfl, he, hp⟩
  all_goals (rw [h] at hm; simp [sentOf] at hm)

/-- **C45** The result of `send_packet` says at which stage it failed: each error is returned exactly if all
stages before went well and the stage it names failed in the way it names. Timeout errors need a configured
timeout, and without one an operation that never completes makes the call wait forever. -/
theorem C45_result_identifies_stage (H : Hash) (ck : Bool) (c : Client) (env : ClientEnv) (remote : SocketAddr)
    (p : Packet) (r : Await (Out ClientError Packet)) (hr : r = (c.sendPacket H ck env remote p).result) :
    (∀ m, r = .ready (.err (.FailedUdpSocketBindingError m)) ↔ env.bind = .ready (.error m)) ∧
    (∀ a m, r = .ready (.err (.FailedEstablishingUdpConnectionError a m)) ↔
      env.bind = .ready (.ok ()) ∧ remote.display = a ∧ env.connect = .ready (.error m)) ∧
    (r = .ready (.err .ConnectionTimeoutError) ↔
      env.bind = .ready (.ok ()) ∧ env.connect = .pending ∧ c.connectionTimeout ≠ none) ∧
    (∀ m, r = .ready (.err (.FailedRadiusPacketEncodingError m)) ↔
      Prepared env ∧ ∃ e, p.encode H ck = .err e ∧ e.display = m) ∧
    (∀ a m, r = .ready (.err (.FailedSendingRadiusPacketError a m)) ↔
      Prepared env ∧ (∃ bs, p.encode H ck = .ok bs) ∧ remote.display = a ∧ env.send = .ready (.error m)) ∧
    (∀ a m, r = .ready (.err (.FailedReceivingResponseError a m)) ↔
      Prepared env ∧ (∃ bs, p.encode H ck = .ok bs) ∧ env.send = .ready (.ok ()) ∧ remote.display = a ∧
      env.recv = .ready (.error m)) ∧
    (r = .ready (.err .SocketTimeoutError) ↔
      Prepared env ∧ (∃ bs, p.encode H ck = .ok bs) ∧ c.socketTimeout ≠ none ∧
      (env.send = .pending ∨ env.send = .ready (.ok ()) ∧ env.recv = .pending)) ∧
    (∀ m, r = .ready (.err (.FailedDecodingRadiusResponseError m)) ↔
      Prepared env ∧ (∃ bs, p.encode H ck = .ok bs) ∧ env.send = .ready (.ok ()) ∧
      ∃ d e, env.recv = .ready (.ok d) ∧ Packet.decode (d.take 65507) p.secret = .err e ∧ e.display = m) ∧
    (∀ q, r = .ready (.ok q) ↔
      Prepared env ∧ (∃ bs, p.encode H ck = .ok bs) ∧ env.send = .ready (.ok ()) ∧
      ∃ d, env.recv = .ready (.ok d) ∧ Packet.decode (d.take 65507) p.secret = .ok q) ∧
    (r = .ready .panic ↔ Prepared env ∧ p.encode H ck = .panic) ∧
    (r = .pending ↔
      env.bind = .pending ∨
      env.bind = .ready (.ok ()) ∧ env.connect = .pending ∧ c.connectionTimeout = none ∨
      Prepared env ∧ (∃ bs, p.encode H ck = .ok bs) ∧ c.socketTimeout = none ∧
        (env.send = .pending ∨ env.send = .ready (.ok ()) ∧ env.recv = .pending)) := by
  subst hr
  rcases sendPacket_unprepared (H := H) (ck := ck) c (env := env) remote p with
    ⟨bs, hp, he⟩ | ⟨e, h1, h⟩ | ⟨h1, h⟩ | ⟨e, h1, h2, h⟩ | ⟨h1, h2, h3, h⟩ | ⟨h1, h2, h3, h⟩ | ⟨e, hp, he, h⟩ |
    ⟨hp, he, h⟩
  · rw [sendPacket_sent c remote hp he]
    have hp' := hp
    obtain ⟨h1, h2⟩ := hp'
    cases hs : env.send with
    | pending => by_cases h3 : c.socketTimeout = none <;> simp_all
    | ready s =>
      cases s with
      | error e => simp_all
      | ok u =>
        cases hv : env.recv with
        | pending => by_cases h3 : c.socketTimeout = none <;> simp_all
        | ready v =>
          cases v with
          | error e => simp_all
          | ok d =>
            cases hd : Packet.decode (d.take 65507) p.secret with
            | ok q => simp_all
            | err e => simp_all
            | panic => exact absurd hd (C01_decode_never_panics _ _)
  all_goals (simp_all [Prepared])

/-- **C45** Errors of the network and of the peer never make `send_packet` panic; it panics only if encoding does
(see C08). -/
theorem C45_no_panic (H : Hash) (c : Client) (env : ClientEnv) (remote : SocketAddr) (p : Packet) (hr : Reachable p) :
    (c.sendPacket H false env remote p).result ≠ .ready .panic := by
  intro h
  have := ((C45_result_identifies_stage H false c env remote p _ rfl).2.2.2.2.2.2.2.2.2.1).1 h
  exact (C08_authenticator_and_no_panic H p hr).2.1 this.2

/-- An environment in which everything works and `d` is received. -/
def answering (d : Bytes) : ClientEnv :=
  { bind := .ready (.ok ()), connect := .ready (.ok ()), send := .ready (.ok ()), recv := .ready (.ok d) }

/-- **C46** (partial) A packet is returned only after exactly one datagram was received, this datagram is a
well-formed RADIUS packet, and the fields returned are its fields, with the secret of the request. So the packet
is authentic and matching if the datagram is. Missing: that the datagram is authentic and carries the identifier of the
request; see `C46_counterexample`. -/
theorem C46_response_partial (H : Hash) (ck : Bool) (c : Client) (env : ClientEnv) (remote : SocketAddr)
    (p q : Packet) (h : (c.sendPacket H ck env remote p).result = .ready (.ok q)) :
    ∃ (d bs : Bytes), receivedOf (c.sendPacket H ck env remote p).trace = [d] ∧
      sentOf (c.sendPacket H ck env remote p).trace = [(remote, bs)] ∧ p.encode H ck = .ok bs ∧
      q.secret = p.secret ∧
      ∃ b : UInt8, q.code.string = codeOf b ∧ Datagram (d.take 65507) b q.identifier q.authenticator q.attributes := by
  obtain ⟨hp, ⟨bs, he⟩, hs, d, hv, hd⟩ :=
    ((C45_result_identifies_stage H ck c env remote p _ rfl).2.2.2.2.2.2.2.2.1 q).1 h
  obtain ⟨h1, h2⟩ := (C02_decode_iff_wire _ _ _).1 hd
  refine ⟨d, bs, ?_, ?_, he, h1, h2⟩
  · rw [sendPacket_sent c remote hp he, hs, hv]; rfl
  · rw [sendPacket_sent c remote hp he, hs, hv]; rfl

/-- A forged reply without attributes. -/
def forged (code ident : UInt8) (auth : Bytes) : Bytes := [code, ident, 0, 20] ++ auth

/-- **C46** is false of the code: for every digest, client, address, request that can be sent, reply code and
identifier chosen by an attacker who knows no secret, one of two datagrams fails the authenticity check for this
request and is still returned as a good response. -/
theorem C46_counterexample (H : Hash) (ck : Bool) (c : Client) (remote : SocketAddr) (p : Packet) (bs : Bytes)
    (he : p.encode H ck = .ok bs) (code ident : UInt8) :
    ∃ auth, (auth = List.replicate 16 0 ∨ auth = List.replicate 16 1) ∧
      Packet.isAuthenticResponse H (forged code ident auth) bs p.secret = .ok false ∧
      (c.sendPacket H ck (answering (forged code ident auth)) remote p).result =
        .ready (.ok ⟨Code.from code, ident, auth, p.secret, []⟩) := by
  have hres : ∀ auth : Bytes, auth.length = 16 →
      (c.sendPacket H ck (answering (forged code ident auth)) remote p).result =
        .ready (.ok ⟨Code.from code, ident, auth, p.secret, []⟩) := by
    intro auth ha
    rw [sendPacket_sent c remote (⟨rfl, rfl⟩ : Prepared (answering (forged code ident auth))) he]
    have := decode_parts code ident 0 20 auth [] [] p.secret [] ha .nil (by decide) (by decide)
    simp only [List.append_nil] at this
    have ht : (forged code ident auth).take 65507 = forged code ident auth :=
      List.take_of_length_le (by simp [forged, ha])
    simp only [answering, ht]
    rw [show forged code ident auth = [code, ident, 0, 20] ++ auth from rfl, this]
    rfl
  have hauth : ∀ auth : Bytes, auth.length = 16 →
      Packet.isAuthenticResponse H (forged code ident auth) bs p.secret = .ok true →
      auth = (H ([code, ident, 0, 20] ++ authenticatorOf bs ++ [] ++ p.secret)).val := by
    intro auth ha h
    obtain ⟨_, _, _, h⟩ := (C13_response_check_exact _ _ _ _).2.1 h
    have e1 : authenticatorOf (forged code ident auth) = auth := by
      simp only [authenticatorOf, forged, List.cons_append, List.nil_append, List.drop_succ_cons, List.drop_zero]
      exact List.take_of_length_le (by omega)
    have e2 : withAuthenticator (forged code ident auth) (authenticatorOf bs) =
        [code, ident, 0, 20] ++ authenticatorOf bs ++ [] := by
      unfold withAuthenticator forged
      rw [List.drop_of_length_le (by simp; omega)]
      rfl
    rw [e1, e2] at h
    exact h
  have hfalse : ∀ auth : Bytes,
      Packet.isAuthenticResponse H (forged code ident auth) bs p.secret ≠ .ok true →
      Packet.isAuthenticResponse H (forged code ident auth) bs p.secret = .ok false := by
    intro auth h
    obtain ⟨⟨b, hb⟩, _⟩ := C13_response_check_exact H (forged code ident auth) bs p.secret
    cases b
    · exact hb
    · exact absurd hb h
  by_cases h0 : Packet.isAuthenticResponse H (forged code ident (List.replicate 16 0)) bs p.secret = .ok true
  · refine ⟨List.replicate 16 1, .inr rfl, hfalse _ fun h1 => ?_, hres _ rfl⟩
    have := (hauth _ rfl h0).trans (hauth _ rfl h1).symm
    exact absurd this (by decide)
  · exact ⟨List.replicate 16 0, .inl rfl, hfalse _ h0, hres _ rfl⟩

/-- A run of the client: Access-Request sent to 127.0.0.1:1812, an unauthentic Access-Accept with another identifier
returned. -/
example : ((Client.new none (some 5)).sendPacket Md5.md5 true (answering (forged 2 77 (List.replicate 16 0)))
    (.v4 ⟨127, 0, 0, 1⟩ 1812) (samplePacket .AccessRequest)).result =
    .ready (.ok ⟨.AccessAccept, 77, List.replicate 16 0, [1, 2, 3], []⟩) := by decide +kernel

/-- Timeouts: with and without a configured duration. -/
example : ((Client.new none (some 5)).sendPacket Md5.md5 true { answering [] with recv := .pending }
    (.v4 ⟨127, 0, 0, 1⟩ 1812) (samplePacket .AccessRequest)).result = .ready (.err .SocketTimeoutError) := by
  decide +kernel
example : ((Client.new (some 5) none).sendPacket Md5.md5 true { answering [] with recv := .pending }
    (.v4 ⟨127, 0, 0, 1⟩ 1812) (samplePacket .AccessRequest)).result = .pending := by
  decide +kernel

/-- A short reply is reported with the text of the decoding error. -/
example : ((Client.new none none).sendPacket Md5.md5 true (answering [2, 9])
    (.v4 ⟨127, 0, 0, 1⟩ 1812) (samplePacket .AccessRequest)).result = .ready (.err (.FailedDecodingRadiusResponseError
      "RADIUS packet doesn't have enough length of bytes; it has to be at least 20 bytes, but actual length was 2")) := by
  decide +kernel

/-- The hypotheses of `C44` and `C46` are met. -/
example : Prepared (answering []) ∧ ∃ bs, (samplePacket .AccessRequest).encode Md5.md5 true = .ok bs :=
  ⟨⟨rfl, rfl⟩, _, rfl⟩

/-- **C44** The socket is bound to an ephemeral port of the unspecified address of the remote's address family. -/
theorem C44_local_address (H : Hash) (ck : Bool) (c : Client) (env : ClientEnv) (remote : SocketAddr) (p : Packet) :
    ∃ a, boundOf (c.sendPacket H ck env remote p).trace = [a] ∧ a.isIpv4 = remote.isIpv4 ∧
      a.display = (if remote.isIpv4 then "0.0.0.0:0" else "[::]:0") := by
  refine ⟨localAddrFor remote, ?_, ?_⟩
  · rcases sendPacket_unprepared (H := H) (ck := ck) c (env := env) remote p with
      ⟨bs, hp, he⟩ | ⟨e, _, h⟩ | ⟨_, h⟩ | ⟨e, _, _, h⟩ | ⟨_, _, _, h⟩ | ⟨_, _, _, h⟩ | ⟨e, _, _, h⟩ | ⟨_, _, h⟩
    · rw [sendPacket_sent c remote hp he]; split <;> rfl
    all_goals (rw [h]; rfl)
  · unfold localAddrFor
    cases hr : remote.isIpv4
    · exact ⟨rfl, by decide +kernel⟩
    · exact ⟨rfl, by decide +kernel⟩

end Radius

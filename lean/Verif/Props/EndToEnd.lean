import Verif.Model.Example
import Verif.Props.Accessors
import Verif.Props.Client
import Verif.Props.Server
/-! # C52: the example client against the example server -/
namespace Radius
open Spec Server

namespace Example

theorem SECRET_ne : SECRET ≠ [] := by decide

/-- What building the request does. -/
theorem built (H : Hash) (rng : Nat → UInt8) (u : String) (pw : Bytes) :
    (pw.length ≤ 128 → ∃ c : Bytes, c.length ≤ 128 ∧ 16 ≤ c.length ∧
      request H rng u pw = .ok ⟨.AccessRequest, rng 16, (List.range 16).map rng, SECRET,
        [⟨1, textBytes u⟩, ⟨2, c⟩]⟩ ∧
      Gen.addUserPassword H 2 (Gen.addString 1 (Packet.new rng .AccessRequest SECRET) u) pw =
        (⟨.AccessRequest, rng 16, (List.range 16).map rng, SECRET, [⟨1, textBytes u⟩, ⟨2, c⟩]⟩, .ok ())) ∧
    (128 < pw.length → request H rng u pw = .panic) := by
  have h26 := C26_user_password_hiding H 2 pw SECRET ((List.range 16).map rng)
  have hp : Gen.addString 1 (Packet.new rng .AccessRequest SECRET) u =
      ⟨.AccessRequest, rng 16, (List.range 16).map rng, SECRET, [⟨1, textBytes u⟩]⟩ := by
    simp [Gen.addString, Packet.new, Packet.newInner, Packet.add, Attributes.add, AVP.fromString, strBytes_eq]
  constructor
  · intro hl
    obtain ⟨c, hc, hlen, _⟩ := h26.1 hl SECRET_ne (by simp)
    have hbc : blockCount pw.length ≤ 8 ∧ 1 ≤ blockCount pw.length := by unfold blockCount; omega
    have hadd : Gen.addUserPassword H 2 (Gen.addString 1 (Packet.new rng .AccessRequest SECRET) u) pw =
        (⟨.AccessRequest, rng 16, (List.range 16).map rng, SECRET, [⟨1, textBytes u⟩, ⟨2, c⟩]⟩, .ok ()) := by
      rw [hp]
      simp only [Gen.addUserPassword, Packet.getSecret, Packet.getAuthenticator, hc, Gen.addChecked]
      rfl
    refine ⟨c, by omega, by omega, ?_, hadd⟩
    unfold request
    simp only [USER_NAME_TYPE, USER_PASSWORD_TYPE, hadd]
  · intro hl
    unfold request
    simp only [USER_NAME_TYPE, USER_PASSWORD_TYPE]
    rw [hp]
    simp only [Gen.addUserPassword, Packet.getSecret, Packet.getAuthenticator, h26.2.1 hl, Gen.addChecked]

theorem request_reachable {H : Hash} {rng : Nat → UInt8} {u : String} {pw : Bytes} {p : Packet}
    (h : request H rng u pw = .ok p) : Reachable p := by
  by_cases hl : pw.length ≤ 128
  · obtain ⟨c, _, _, h1, h2⟩ := (built H rng u pw).1 hl
    rw [h] at h1
    have := add_reachable H 2 _ .userPassword pw (.add _ (AVP.fromString 1 u) (.new rng .AccessRequest SECRET))
    rw [Out.ok.inj h1]
    rw [show Gen.add H 2 ((Packet.new rng .AccessRequest SECRET).add (AVP.fromString 1 u)) .userPassword pw = _
      from h2] at this
    exact this
  · rw [(built H rng u pw).2 (by omega)] at h; cases h

end Example

open Example in
/-- **C52** The client can build and send every request whose user name has at most 253 bytes and whose
password at most 128; the datagram then has at most 405 bytes. A longer user name is refused when encoding,
a longer password when adding it. -/
theorem C52_client_side (H : Hash) (ck : Bool) (rng : Nat → UInt8) (u : String) (pw : Bytes) :
    ((textBytes u).length ≤ 253 → pw.length ≤ 128 →
      ∃ p bs, Example.request H rng u pw = .ok p ∧ p.encode H ck = .ok bs ∧ bs.length ≤ 405) ∧
    (253 < (textBytes u).length → ∀ p, Example.request H rng u pw = .ok p →
      p.encode H ck = .err (.EncodingError "attribute is too large")) ∧
    (128 < pw.length → Example.request H rng u pw = .panic) := by
  refine ⟨?_, ?_, (built H rng u pw).2⟩
  · intro hu hpw
    obtain ⟨c, hc, hc', hreq, _⟩ := (built H rng u pw).1 hpw
    have hsz : wireSize [⟨1, textBytes u⟩, ⟨2, c⟩] = (textBytes u).length + 2 + (c.length + 2) := by
      simp [wireSize]
    have hr := request_reachable hreq
    obtain ⟨bs, hbs⟩ := ((C07_encode_outcome H ck _ hr).2 (by simp; omega) (by simp only [hsz]; omega)).2.2
      (by simp only [hsz]; omega) (by simp only; decide)
    refine ⟨_, bs, hreq, hbs, ?_⟩
    obtain ⟨_, _, h1⟩ := C06_length_field_mod H ck _ bs hr hbs
    rw [hsz] at h1
    omega
  · intro hu p hp
    by_cases hl : pw.length ≤ 128
    · obtain ⟨c, _, _, hreq, _⟩ := (built H rng u pw).1 hl
      rw [hp] at hreq
      rw [Out.ok.inj hreq]
      refine (C07_encode_outcome H ck _ (Out.ok.inj hreq ▸ request_reachable hp)).1 ⟨_, List.mem_cons_self .., hu⟩
    · rw [(built H rng u pw).2 (by omega)] at hp; cases hp

/-- What the example handler has to answer. -/
def verdict (u : String) (pw : Bytes) : Code :=
  if u = "admin" ∧ pw = textBytes "p@ssw0rd" then .AccessAccept else .AccessReject

open Example in
/-- **C52** The handler's answer to a datagram of the client, and what the client makes of it. The handler sees
the password up to its first zero byte. -/
theorem C52_handler_answer (H : Hash) (ck echo : Bool) (rng : Nat → UInt8) (u : String) (pw bs : Bytes) (p : Packet)
    (hreq : Example.request H rng u pw = .ok p) (he : p.encode H ck = .ok bs) (r : Request)
    (hr : Packet.decode bs SECRET = .ok r.packet) :
    (ValidUtf8 (beforeZero pw) →
      ∃ resp, handler H ck echo r = .ok (r.remoteAddr, resp) ∧
        Packet.isAuthenticResponse H resp bs SECRET = .ok true ∧
        ∀ (c : Client) (remote : SocketAddr), ∃ q,
          (c.sendPacket H ck (answering resp) remote p).result = .ready (.ok q) ∧
          q.identifier = p.identifier ∧ q.code = verdict u (beforeZero pw) ∧
          q.attributes = (if echo then [⟨1, textBytes u⟩] else [])) ∧
    (¬ ValidUtf8 (beforeZero pw) → handler H ck echo r = .panic) := by
  have hreach := request_reachable hreq
  have hl : pw.length ≤ 128 := by
    apply Nat.le_of_not_lt
    intro h
    rw [(built H rng u pw).2 h] at hreq; cases hreq
  obtain ⟨c, hc, hc', hreq', hadd⟩ := (built H rng u pw).1 hl
  have hpe : p = _ := Out.ok.inj (hreq.symm.trans hreq')
  have hu : (textBytes u).length ≤ 253 := by
    apply Nat.le_of_not_lt
    intro h
    have := (C52_client_side H ck rng u pw).2.1 h p hreq
    rw [he] at this; cases this
  have hsz : wireSize p.attributes < 65516 := by rw [hpe]; simp [wireSize]; omega
  have hdec : Packet.decode bs SECRET = .ok p := by
    have := (C04_encode_decode H ck p bs hreach hsz he).2 (.inl (by rw [hpe]))
    rw [show p.secret = SECRET from by rw [hpe]] at this
    exact this
  have hrp : r.packet = p := Out.ok.inj (hr.symm.trans hdec)
  -- the lookups of the handler
  have hname : Gen.lookup H 1 p .string = some (.ok u) := by
    rw [((C32_lookup_first H 1 p .string rfl).2 [] ⟨1, textBytes u⟩ [⟨2, c⟩] (by rw [hpe]; rfl) (by simp) rfl)]
    have := (C20_text 1 u ⟨1, textBytes u⟩).2.2.2.2 rfl
    simp only [Gen.decode]
    rw [this]
    rfl
  have hpass : Gen.lookup H 2 p .userPassword = some (.ok (beforeZero pw)) := by
    refine (C31_add_lookup H 2 (Gen.addString 1 (Packet.new rng .AccessRequest SECRET) u) p .userPassword pw
      (beforeZero pw) ?_ ?_ ?_ rfl).1
    · simp [Gen.addString, Packet.new, Packet.newInner, Packet.add]
    · simp [Gen.addString, Packet.new, Packet.newInner, Packet.add, Attributes.add, AVP.fromString]
    · rw [hpe]; exact hadd
  have hutf : ∀ bs, unwrapUtf8 bs = (match stringFromUtf8 bs with | .ok s => .ok s | _ => .panic) := fun _ => rfl
  constructor
  · intro hv
    obtain ⟨s, hs⟩ := (C20_text_validity ⟨0, beforeZero pw⟩).1.2 hv
    have hs' : stringFromUtf8 (beforeZero pw) = .ok s := hs
    have hsb : beforeZero pw = textBytes s := (C20_text 0 s ⟨0, beforeZero pw⟩).2.2.2.1 hs
    have hver : (if u = "admin" ∧ s = "p@ssw0rd" then Code.AccessAccept else Code.AccessReject) =
        verdict u (beforeZero pw) := by
      unfold verdict
      have : s = "p@ssw0rd" ↔ beforeZero pw = textBytes "p@ssw0rd" := by
        constructor
        · rintro rfl; exact hsb
        · intro h
          have h1 := (C20_text 0 "p@ssw0rd" ⟨0, beforeZero pw⟩).2.2.2.2 h
          rw [hs] at h1
          exact Out.ok.inj h1
      simp only [this]
    let code := verdict u (beforeZero pw)
    have hcode : authRule code.toU8 = some .chained ∧ authRule code.toU8 ≠ none := by
      show authRule (verdict u (beforeZero pw)).toU8 = some .chained ∧ authRule (verdict u (beforeZero pw)).toU8 ≠ none
      unfold verdict; split <;> decide
    let es : List Edit := if echo then [.add (AVP.fromString 1 u)] else []
    let q0 := runEdits (p.makeResponsePacket code) es
    have hq0 : (if echo then Gen.addString 1 (p.makeResponsePacket code) u else p.makeResponsePacket code) = q0 := by
      show _ = runEdits (p.makeResponsePacket code) (if echo then [.add (AVP.fromString 1 u)] else [])
      cases echo <;> rfl
    have hattrs : q0.attributes = if echo then [⟨1, textBytes u⟩] else [] := by
      rw [← hq0]
      cases echo <;> simp [Gen.addString, Packet.add, Attributes.add, Packet.makeResponsePacket, AVP.fromString,
        strBytes_eq]
    have hq0r : Reachable q0 := runEdits_reachable _ _ (.makeResponsePacket _ _ hreach)
    obtain ⟨f1, f2, f3, f4⟩ := runEdits_fields (p.makeResponsePacket code) es
    have hwz : wireSize q0.attributes ≤ 255 := by
      rw [hattrs]; cases echo <;> simp [wireSize]; omega
    obtain ⟨resp, hresp⟩ := ((C07_encode_outcome H ck q0 hq0r).2
      (by rw [hattrs]; cases echo <;> simp; omega) (by omega)).2.2 (by omega) (by rw [f1]; exact hcode.2)
    have hd2 := (C04_encode_decode H ck q0 resp hq0r (by omega) hresp).1
    obtain ⟨ha1, ha2, ha3⟩ := C11_responses_authentic H ck bs SECRET p code es resp hdec hcode.1 SECRET_ne hresp
    refine ⟨resp, ?_, ha1, ?_⟩
    · unfold handler
      simp only [Request.getPacket, Request.getRemoteAddr, hrp, USER_NAME_TYPE, USER_PASSWORD_TYPE, hname, hpass,
        unwrap2, Out.bind_ok, hutf, hs', hver]
      rw [show (if echo = true then Gen.addString 1 (p.makeResponsePacket (verdict u (beforeZero pw))) u
        else p.makeResponsePacket (verdict u (beforeZero pw))) = q0 from hq0, hresp]
      rfl
    · intro cl remote
      refine ⟨{ q0 with authenticator := authenticatorOf resp }, ?_, ?_, ?_, ?_⟩
      · refine ((C45_result_identifies_stage H ck cl (answering resp) remote p _ rfl).2.2.2.2.2.2.2.2.1 _).2
          ⟨⟨rfl, rfl⟩, ⟨bs, he⟩, rfl, resp, rfl, ?_⟩
        have hle := (C06_length_field_partial H ck q0 resp hq0r (by omega) hresp).2.2.1
        rw [List.take_of_length_le (by omega)]
        rw [show p.secret = q0.secret from f4.symm]
        exact hd2
      · exact f2
      · exact f1
      · exact hattrs
  · intro hv
    obtain ⟨m, hm⟩ := (C20_text_validity ⟨0, beforeZero pw⟩).2 hv
    have hm' : stringFromUtf8 (beforeZero pw) = .err (.DecodingError m) := hm
    unfold handler
    simp only [Request.getPacket, Request.getRemoteAddr, hrp, USER_NAME_TYPE, USER_PASSWORD_TYPE, hname, hpass,
      unwrap2, Out.bind_ok, hutf, hm', Out.bind_panic]

theorem beforeZero_of_no_zero (pw : Bytes) (h : 0 ∉ pw) : beforeZero pw = pw := by
  unfold beforeZero
  induction pw with
  | nil => rfl
  | cons b bs ih =>
    have hb : b ≠ 0 := fun e => h (e ▸ List.mem_cons_self ..)
    rw [List.takeWhile_cons_of_pos (by simpa using hb), ih (fun hm => h (List.mem_cons_of_mem _ hm))]

open Example in
/-- **C52** (partial) End to end, in every execution of the server with the example secret provider: when it has received
a datagram sent by the client, whatever else is going on, it either goes on to find that a request with the same key is in
progress or calls the handler; its answer goes to the sender, is authentic, and is returned by the client as
Access-Accept exactly for admin / p@ssw0rd, and as Access-Reject otherwise. The full claim — all passwords — is
false for passwords that contain a zero byte or are not UTF-8: `C52_counterexample_zero`, `C52_counterexample_utf8`. -/
theorem C52_end_to_end_partial (H : Hash) (ck echo : Bool) (rng : Nat → UInt8) (u : String) (pw bs : Bytes) (p : Packet)
    (hreq : Example.request H rng u pw = .ok p) (he : p.encode H ck = .ok bs)
    (hz : 0 ∉ pw) (hv : ValidUtf8 pw)
    {s : State} {tr pre post : List Event} (h : Exec H s tr) (i : Nat) (rem loc : SocketAddr)
    (htr : tr = pre ++ .received i bs rem loc :: post) (hbuf : bs.length ≤ bufferSizeAfter pre)
    (hsec : .secret i rem (fetchSecret rem) ∈ tr) :
    ∃ as s' es, (∀ a ∈ as, internal a = true) ∧ Steps H s as s' es ∧
      (.duplicate i ⟨rem.display, p.identifier⟩ ∈ tr ++ es ∨
       ∃ r resp, .started i r ∈ tr ++ es ∧ handler H ck echo r = .ok (rem, resp) ∧
        Packet.isAuthenticResponse H resp bs SECRET = .ok true ∧
        ∀ (c : Client) (remote : SocketAddr), ∃ q,
          (c.sendPacket H ck (answering resp) remote p).result = .ready (.ok q) ∧
          q.identifier = p.identifier ∧
          q.code = if u = "admin" ∧ pw = textBytes "p@ssw0rd" then .AccessAccept else .AccessReject) := by
  have hreach := request_reachable hreq
  have hl : pw.length ≤ 128 := by
    apply Nat.le_of_not_lt
    intro h
    rw [(built H rng u pw).2 h] at hreq; cases hreq
  obtain ⟨c, hc, hc', hreq', hadd⟩ := (built H rng u pw).1 hl
  have hpe : p = _ := Out.ok.inj (hreq.symm.trans hreq')
  have hu : (textBytes u).length ≤ 253 := by
    apply Nat.le_of_not_lt
    intro h
    have := (C52_client_side H ck rng u pw).2.1 h p hreq
    rw [he] at this; cases this
  have hsz : wireSize p.attributes < 65516 := by rw [hpe]; simp [wireSize]; omega
  have hps : p.secret = SECRET := by rw [hpe]
  have hdec : Packet.decode bs SECRET = .ok p := by
    have := (C04_encode_decode H ck p bs hreach hsz he).2 (.inl (by rw [hpe]))
    rwa [hps] at this
  have hacc : Acceptable H (skipAfter pre) (bs.take (bufferSizeAfter pre)) SECRET p := by
    rw [List.take_of_length_le hbuf]
    refine ⟨SECRET_ne, hdec, fun _ => ?_⟩
    have := C10_own_requests_authentic H ck p bs hreach (.inl (by rw [hpe]; rfl)) (by rw [hps]; exact SECRET_ne) he
    rwa [hps] at this
  obtain ⟨as, s', es, ha, hst, hor⟩ := C38_valid_handled_or_duplicate h i bs SECRET rem loc p htr hsec hacc
  refine ⟨as, s', es, ha, hst, ?_⟩
  rcases hor with hd | hs
  · exact .inl hd
  · right
    have hbz := beforeZero_of_no_zero pw hz
    obtain ⟨resp, h1, h2, h3⟩ :=
      (C52_handler_answer H ck echo rng u pw bs p hreq he ⟨loc, rem, p⟩ hdec).1 (by rw [hbz]; exact hv)
    refine ⟨⟨loc, rem, p⟩, resp, hs, h1, h2, ?_⟩
    intro cl remote
    obtain ⟨q, h4, h5, h6, _⟩ := h3 cl remote
    rw [hbz] at h6
    exact ⟨q, h4, h5, h6⟩

/-- A password that is not `p@ssw0rd`. -/
def zeroPassword : Bytes := textBytes "p@ssw0rd" ++ [0, 0x78]

open Example in
/-- **C52** is false for passwords with a zero byte: with every digest, admin with the password `p@ssw0rd\0x` is
accepted. -/
theorem C52_counterexample_zero (H : Hash) (ck : Bool) (rng : Nat → UInt8) :
    zeroPassword ≠ textBytes "p@ssw0rd" ∧
    ∃ p bs, Example.request H rng "admin" zeroPassword = .ok p ∧ p.encode H ck = .ok bs ∧
      ∀ r : Request, Packet.decode bs SECRET = .ok r.packet →
        ∃ resp, handler H ck false r = .ok (r.remoteAddr, resp) ∧
        ∀ (c : Client) (remote : SocketAddr), ∃ q,
          (c.sendPacket H ck (answering resp) remote p).result = .ready (.ok q) ∧ q.code = .AccessAccept := by
  refine ⟨by decide +kernel, ?_⟩
  obtain ⟨p, bs, h1, h2, _⟩ := (C52_client_side H ck rng "admin" zeroPassword).1 (by decide +kernel) (by decide +kernel)
  refine ⟨p, bs, h1, h2, ?_⟩
  intro r hr
  have hb : beforeZero zeroPassword = textBytes "p@ssw0rd" := by decide +kernel
  obtain ⟨resp, h3, _, h4⟩ := (C52_handler_answer H ck false rng "admin" zeroPassword bs p h1 h2 r hr).1
    (by rw [hb]; exact ⟨_, rfl⟩)
  refine ⟨resp, h3, fun c remote => ?_⟩
  obtain ⟨q, h5, _, h6, _⟩ := h4 c remote
  refine ⟨q, h5, ?_⟩
  rw [h6, hb, verdict, if_pos ⟨rfl, rfl⟩]

open Example in
/-- **C52** is false for passwords that are not UTF-8: with every digest and user name the handler panics (and by
`C40_panic_blocks_key` its request key stays blocked). -/
theorem C52_counterexample_utf8 (H : Hash) (ck echo : Bool) (rng : Nat → UInt8) (u : String)
    (hu : (textBytes u).length ≤ 253) :
    ∃ p bs, Example.request H rng u [0x80] = .ok p ∧ p.encode H ck = .ok bs ∧
      ∀ r : Request, Packet.decode bs SECRET = .ok r.packet → handler H ck echo r = .panic := by
  obtain ⟨p, bs, h1, h2, _⟩ := (C52_client_side H ck rng u [0x80]).1 hu (by decide)
  refine ⟨p, bs, h1, h2, fun r hr => ?_⟩
  refine (C52_handler_answer H ck echo rng u [0x80] bs p h1 h2 r hr).2 ?_
  have hb : beforeZero [0x80] = [0x80] := by decide
  rw [hb]
  intro hv
  obtain ⟨s, hs⟩ := (C20_text_validity ⟨1, [0x80]⟩).1.2 hv
  have : ({ typ := 1, value := [0x80] } : AVP).encodeString = .err (.DecodingError "invalid utf-8") := by decide +kernel
  rw [this] at hs; cases hs

/-- One complete run: client, network, server with the given scheduling, handler, network, client. -/
def completeRun (H : Hash) (rng : Nat → UInt8) (u : String) (pw : Bytes) : Option (Code × UInt8 × UInt8) :=
  let addr : SocketAddr := .v4 ⟨10, 0, 0, 1⟩ 5000
  match Example.request H rng u pw with
  | .ok p =>
    match p.encode H true with
    | .ok bs =>
      match execute H listen [.run, .recv bs addr (some addr), .secret 0 (Example.fetchSecret addr), .lock 0, .check 0,
        .insert 0, .invoke 0] with
      | some (_, [.runStarted, .received 0 d a _, .secret 0 b answer, .admitted 0 _, .started 0 r]) =>
        if d = bs ∧ a = addr ∧ b = addr ∧ answer = Example.fetchSecret addr then
          match Example.handler H true false r with
          | .ok (_, resp) =>
            match ((Client.new none none).sendPacket H true (answering resp) addr p).result with
            | .ready (.ok q) => some (q.code, q.identifier, p.identifier)
            | _ => none
          | _ => none
        else none
      | _ => none
    | _ => none
  | _ => none

/-- The hypotheses of `C52_end_to_end_partial` are met by complete runs with MD5. -/
example : completeRun Md5.md5 (fun n => UInt8.ofNat (3 * n)) "admin" (textBytes "p@ssw0rd") =
    some (.AccessAccept, 48, 48) := by decide +kernel
example : completeRun Md5.md5 (fun n => UInt8.ofNat (3 * n)) "admin" (textBytes "INVALID-PASS") =
    some (.AccessReject, 48, 48) := by decide +kernel
example : completeRun Md5.md5 (fun n => UInt8.ofNat (3 * n)) "admin" [0x80] = none := by decide +kernel

end Radius

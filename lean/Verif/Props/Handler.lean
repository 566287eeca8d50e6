import Verif.Props.EndToEnd
/-! # C61: what the example handlers do with any request, and what that lets a stranger do -/
namespace Radius
open Spec Server

/-- The request names a user and carries a password that can be recovered, both as text. -/
def Answerable (H : Hash) (p : Packet) (u s : String) : Prop :=
  Gen.lookup H 1 p .string = some (.ok u) ∧ Gen.lookup H 2 p .userPassword = some (.ok (textBytes s))

/-- A user name read from a decoded packet is the value of one of its attributes, so it fits into the response. -/
theorem lookup_name_small (H : Hash) {d secret : Bytes} {p : Packet} {u : String}
    (hd : Packet.decode d secret = .ok p) (hu : Gen.lookup H 1 p .string = some (.ok u)) :
    (textBytes u).length ≤ 253 := by
  obtain ⟨c, hi, lo, body, padding, hb, ha, hw, hl, hm, hc, hsec⟩ := decode_ok_elim d secret p hd
  rw [lookup_of_kind H 1 p .string rfl, lookupAll_eq] at hu
  cases hf : p.attributes.filter (fun a => decide (a.typ = 1)) with
  | nil => rw [hf] at hu; cases hu
  | cons a rest =>
    rw [hf] at hu
    have ha : a ∈ p.attributes := (List.mem_filter.1 (hf ▸ List.mem_cons_self ..)).1
    have hs := hw.small a ha
    simp only [List.head?_cons, Option.map_some, Option.some.injEq] at hu
    have := (C20_text a.typ u a).2.2.2.1 hu
    rw [← this]; exact hs

open Example in
/-- **C61** The handlers of the example server (`echo = false`) and of the end-to-end test (`echo = true`) on any
request the server can give them. If user name and password can be read as text, the answer goes to the sender, is
authentic for the request, decodes, repeats the identifier and is Access-Accept exactly for admin / p@ssw0rd.
Otherwise the handler panics. -/
theorem C61_handler_exact (H : Hash) (ck echo : Bool) (d secret : Bytes) (r : Request) (hs : secret ≠ [])
    (hd : Packet.decode d secret = .ok r.packet) :
    (∀ u s, Answerable H r.packet u s →
      ∃ resp, handler H ck echo r = .ok (r.remoteAddr, resp) ∧
        Packet.isAuthenticResponse H resp d secret = .ok true ∧
        ∃ q, Packet.decode resp secret = .ok q ∧ q.identifier = r.packet.identifier ∧
          q.code = (if u = "admin" ∧ s = "p@ssw0rd" then .AccessAccept else .AccessReject) ∧
          q.attributes = (if echo then [⟨1, textBytes u⟩] else [])) ∧
    ((∀ u s, ¬ Answerable H r.packet u s) → handler H ck echo r = .panic) := by
  have hutf : ∀ bs, unwrapUtf8 bs = (match stringFromUtf8 bs with | .ok s => .ok s | _ => .panic) := fun _ => rfl
  have htext : ∀ s : String, stringFromUtf8 (textBytes s) = .ok s := fun s =>
    (C20_text 0 s ⟨0, textBytes s⟩).2.2.2.2 rfl
  constructor
  · rintro u s ⟨hname, hpass⟩
    have hu := lookup_name_small H hd hname
    let code : Code := if u = "admin" ∧ s = "p@ssw0rd" then .AccessAccept else .AccessReject
    have hcode : authRule code.toU8 = some .chained := by
      show authRule (Code.toU8 (if u = "admin" ∧ s = "p@ssw0rd" then .AccessAccept else .AccessReject)) = _
      split <;> decide
    let es : List Edit := if echo then [.add (AVP.fromString 1 u)] else []
    let q0 := runEdits (r.packet.makeResponsePacket code) es
    have hq0 : (if echo then Gen.addString 1 (r.packet.makeResponsePacket code) u
        else r.packet.makeResponsePacket code) = q0 := by
      show _ = runEdits (r.packet.makeResponsePacket code) (if echo then [.add (AVP.fromString 1 u)] else [])
      cases echo <;> rfl
    have hattrs : q0.attributes = if echo then [⟨1, textBytes u⟩] else [] := by
      rw [← hq0]
      cases echo <;> simp [Gen.addString, Packet.add, Attributes.add, Packet.makeResponsePacket, AVP.fromString,
        strBytes_eq]
    have hq0r : Reachable q0 := runEdits_reachable _ _ (.makeResponsePacket _ _ (.decode d secret _ hd))
    obtain ⟨f1, f2, f3, f4⟩ := runEdits_fields (r.packet.makeResponsePacket code) es
    have hwz : wireSize q0.attributes ≤ 255 := by
      rw [hattrs]; cases echo <;> simp [wireSize]; omega
    obtain ⟨resp, hresp⟩ := ((C07_encode_outcome H ck q0 hq0r).2
      (by rw [hattrs]; cases echo <;> simp; omega) (by omega)).2.2 (by omega)
        (by rw [f1]; show authRule code.toU8 ≠ none; rw [hcode]; simp)
    have hd2 := (C04_encode_decode H ck q0 resp hq0r (by omega) hresp).1
    obtain ⟨ha1, _, _⟩ := C11_responses_authentic H ck d secret r.packet code es resp hd hcode hs hresp
    have hsec : q0.secret = secret := by
      rw [f4]; exact ((C02_decode_iff_wire d secret r.packet).1 hd).1
    refine ⟨resp, ?_, ha1, { q0 with authenticator := authenticatorOf resp }, hsec ▸ hd2, f2, f1, hattrs⟩
    unfold handler
    simp only [Request.getPacket, Request.getRemoteAddr, USER_NAME_TYPE, USER_PASSWORD_TYPE, hname, hpass,
      unwrap2, Out.bind_ok, hutf, htext]
    rw [show (if echo = true then Gen.addString 1 (r.packet.makeResponsePacket
        (if u = "admin" ∧ s = "p@ssw0rd" then .AccessAccept else .AccessReject)) u
      else r.packet.makeResponsePacket (if u = "admin" ∧ s = "p@ssw0rd" then .AccessAccept else .AccessReject)) = q0
      from hq0, hresp]
    rfl
  · intro hno
    unfold handler
    simp only [Request.getPacket, Request.getRemoteAddr, USER_NAME_TYPE, USER_PASSWORD_TYPE]
    have gen : ∀ (mu : Option (Out AVPError String)) (mp : Option (Out AVPError Bytes)) (f : String → String → Out Empty
        (SocketAddr × Bytes)), (∀ u s, ¬ (mu = some (.ok u) ∧ mp = some (.ok (textBytes s)))) →
        (do let u ← unwrap2 mu
            let s ← unwrapUtf8 (← unwrap2 mp)
            f u s) = .panic := by
      intro mu mp f hno
      match mu with
      | none => rfl
      | some (.err _) => rfl
      | some .panic => rfl
      | some (.ok u) =>
        match mp with
        | none => rfl
        | some (.err _) => rfl
        | some .panic => rfl
        | some (.ok pw) =>
          simp only [unwrap2, Out.bind_ok, hutf]
          cases hx : stringFromUtf8 pw with
          | ok s =>
            have : pw = textBytes s := (C20_text 0 s ⟨0, pw⟩).2.2.2.1 hx
            exact absurd ⟨rfl, by rw [this]⟩ (hno u s)
          | err e => simp only [Out.bind_panic]
          | panic => simp only [Out.bind_panic]
    exact gen _ _ _ hno

/-- An Access-Request without attributes, with any identifier and authenticator. It is written without a secret. -/
def bareRequest (ident : UInt8) (auth : Bytes) : Bytes := [1, ident, 0, 20] ++ auth

open Example in
/-- **C61** Who does not know the secret can make the handler panic, with a datagram of 20 bytes: whatever secret the
provider gives for the sender's address and whatever else is going on, the server goes on to call the handler (or to
drop the datagram because that key is already in use), and the handler panics. From then on no request from that
address with that identifier is ever handled. UDP source addresses are chosen by the sender. -/
theorem C61_stranger_blocks_client (H : Hash) (ck echo : Bool) (ident : UInt8) (auth secret : Bytes)
    (hauth : auth.length = 16) (hs : secret ≠ []) {s : State} {tr pre post : List Event} (h : Exec H s tr) (i : Nat)
    (rem loc : SocketAddr) (htr : tr = pre ++ .received i (bareRequest ident auth) rem loc :: post)
    (hbuf : 20 ≤ bufferSizeAfter pre) (hsec : .secret i rem (.ok secret) ∈ tr) :
    ∃ as s' es, (∀ a ∈ as, internal a = true) ∧ Steps H s as s' es ∧
      (.duplicate i ⟨rem.display, ident⟩ ∈ tr ++ es ∨
       ∃ r, .started i r ∈ tr ++ es ∧ r.remoteAddr = rem ∧ r.packet.identifier = ident ∧
        handler H ck echo r = .panic ∧
        ∀ s2 tr2 mid tail j d rem' loc' r', Exec H s2 tr2 →
          tr2 = tr ++ es ++ mid ++ .received j d rem' loc' :: tail → .ended i .panic ∈ tr ++ es ++ mid →
          r'.remoteAddr = rem → r'.packet.identifier = ident → .started j r' ∉ tr2) := by
  have hlen : (bareRequest ident auth).length = 20 := by simp [bareRequest, hauth]
  have hdec : Packet.decode (bareRequest ident auth) secret = .ok ⟨.AccessRequest, ident, auth, secret, []⟩ := by
    refine (C02_decode_iff_wire _ _ _).2 ⟨rfl, 1, by show Code.AccessRequest.string = _; decide, 0, 20, [], [], ?_, hauth, .nil, by decide, by decide⟩
    simp [bareRequest]
  have hacc : Acceptable H (skipAfter pre) ((bareRequest ident auth).take (bufferSizeAfter pre)) secret
      ⟨.AccessRequest, ident, auth, secret, []⟩ := by
    rw [List.take_of_length_le (by omega)]
    exact ⟨hs, hdec, fun _ => C59_access_request_any_secret H _ secret (by omega) hs (by show authRule 1 = _; decide)⟩
  obtain ⟨as, s', es, h1, h2, h3⟩ := C38_valid_handled_or_duplicate h i _ secret rem loc _ htr hsec hacc
  refine ⟨as, s', es, h1, h2, h3.imp id ?_⟩
  intro hst
  refine ⟨_, hst, rfl, rfl, ?_, ?_⟩
  · refine (C61_handler_exact H ck echo _ secret _ hs hdec).2 ?_
    rintro u t ⟨hn, _⟩
    rw [(C32_lookup_first H 1 _ .string rfl).1.2 (by simp)] at hn
    cases hn
  · intro s2 tr2 mid tail j d rem' loc' r' hex htr2 hend ha hid
    exact C40_panic_blocks_key hex i j _ r' d rem' loc'
      (List.mem_append_left _ hst) hend htr2 ha hid

/-- Non-vacuity: with MD5, requests of the client are answerable, and the bare request is not. -/
example : ∃ p : Packet, Answerable Md5.md5 p "admin" "p@ssw0rd" ∧
    ∃ d, Packet.decode d Example.SECRET = .ok p := by
  have key : (match Example.request Md5.md5 (fun n => UInt8.ofNat (3 * n)) "admin" (textBytes "p@ssw0rd") with
    | .ok p => match p.encode Md5.md5 true with
      | .ok bs => match Packet.decode bs Example.SECRET with
        | .ok q => (match Gen.lookup Md5.md5 1 q .string with
            | some (.ok u) => decide ((show String from u) = "admin") | _ => false) &&
          (match Gen.lookup Md5.md5 2 q .userPassword with
            | some (.ok pw) => decide ((show Bytes from pw) = textBytes "p@ssw0rd") | _ => false)
        | _ => false
      | _ => false
    | _ => false) = true := by decide +kernel
  split at key
  · split at key
    · split at key
      · rename_i q hq
        rw [Bool.and_eq_true] at key
        obtain ⟨k1, k2⟩ := key
        refine ⟨q, ⟨?_, ?_⟩, _, hq⟩
        · split at k1
          · rename_i u hu
            rw [hu, show u = "admin" from @of_decide_eq_true ((show String from u) = "admin") _ k1]
          · cases k1
        · split at k2
          · rename_i pw hpw
            rw [hpw, show pw = textBytes "p@ssw0rd" from @of_decide_eq_true ((show Bytes from pw) = textBytes "p@ssw0rd") _ k2]
          · cases k2
      · cases key
    · cases key
  · cases key
example : (match execute Md5.md5 listen [.run, .recv (bareRequest 7 (List.replicate 16 9)) (.v4 ⟨10, 0, 0, 1⟩ 5000)
      (some (.v4 ⟨10, 0, 0, 2⟩ 1812)), .secret 0 (.ok [1]), .lock 0, .check 0, .insert 0, .invoke 0,
      .handlerEnds 0 .panic] with
    | some (_, [_, .received 0 _ _ _, _, .admitted 0 _, .started 0 r, .ended 0 .panic]) =>
      (match Example.handler Md5.md5 true false r with | .panic => true | _ => false)
    | _ => false) = true := by decide +kernel

end Radius

import Verif.Props.Encode
/-! # C10 - C14: authenticity checks -/
namespace Radius
open Spec

theorem ok_beq (a b : Bytes) : (Out.ok (a == b) : Out Empty Bool) = .ok true ↔ b = a := by
  simp only [Out.ok.injEq, beq_iff_eq]
  exact eq_comm

/-- `is_authentic_request` with slices resolved. -/
theorem isAuthenticRequest_eq (H : Hash) (bs secret : Bytes) (h : 20 ≤ bs.length) (hs : secret ≠ []) :
    Packet.isAuthenticRequest H bs secret =
      (match Code.from (bs.getD 0 0) with
       | .AccessRequest | .StatusServer => .ok true
       | .AccountingRequest | .DisconnectRequest | .CoARequest =>
         .ok ((H (bs.take 4 ++ List.replicate 16 0 ++ bs.drop 20 ++ secret)).val == (bs.drop 4).take 16)
       | _ => .ok false) := by
  unfold Packet.isAuthenticRequest
  have hse : secret.isEmpty = false := by simpa using hs
  rw [if_neg (by simp [hse, RADIUS_PACKET_HEADER_LENGTH]; omega)]
  rw [idx_of_lt bs 0 (by omega), slice_of_le _ 0 4 (by omega) (by omega),
    slice_of_le _ 4 _ (by decide) (by rw [RADIUS_PACKET_HEADER_LENGTH]; omega),
    sliceFrom_of_le _ _ (by rw [RADIUS_PACKET_HEADER_LENGTH]; omega)]
  have hg : bs.getD 0 0 = bs[0] := by simp [List.getD_eq_getElem?_getD, show 0 < bs.length by omega]
  rw [hg]
  cases hcd : Code.from bs[0] <;> simp only [Out.bind_ok, hcd] <;> rfl

/-- `is_authentic_response` with slices resolved. -/
theorem isAuthenticResponse_eq (H : Hash) (resp req secret : Bytes) (h : 20 ≤ resp.length)
    (h' : 20 ≤ req.length) (hs : secret ≠ []) :
    Packet.isAuthenticResponse H resp req secret =
      .ok ((H (resp.take 4 ++ (req.drop 4).take 16 ++ resp.drop 20 ++ secret)).val
        == (resp.drop 4).take 16) := by
  unfold Packet.isAuthenticResponse
  have hse : secret.isEmpty = false := by simpa using hs
  rw [if_neg (by simp [hse, RADIUS_PACKET_HEADER_LENGTH]; omega)]
  rw [slice_of_le _ 0 4 (by omega) (by omega),
    slice_of_le req 4 _ (by decide) (by rw [RADIUS_PACKET_HEADER_LENGTH]; omega),
    slice_of_le resp 4 _ (by decide) (by rw [RADIUS_PACKET_HEADER_LENGTH]; omega),
    sliceFrom_of_le _ _ (by rw [RADIUS_PACKET_HEADER_LENGTH]; omega)]
  simp only [Out.bind_ok]
  rfl

/-- **C12** `is_authentic_request` never panics and is exact. -/
theorem C12_request_check_exact (H : Hash) (bs secret : Bytes) :
    (∃ b, Packet.isAuthenticRequest H bs secret = .ok b) ∧
    (Packet.isAuthenticRequest H bs secret = .ok true ↔
      20 ≤ bs.length ∧ secret ≠ [] ∧
      (authRule (bs.getD 0 0) = some .own ∨
       authRule (bs.getD 0 0) = some .zeroed ∧
        authenticatorOf bs = (H (withAuthenticator bs (List.replicate 16 0) ++ secret)).val)) := by
  by_cases h : 20 ≤ bs.length ∧ secret ≠ []
  · obtain ⟨h1, h2⟩ := h
    rw [isAuthenticRequest_eq H bs secret h1 h2]
    have hrule : ∀ b : UInt8,
        (authRule b = some .own ↔ (Code.from b = .AccessRequest ∨ Code.from b = .StatusServer)) ∧
        (authRule b = some .zeroed ↔ (Code.from b = .AccountingRequest ∨ Code.from b = .DisconnectRequest
          ∨ Code.from b = .CoARequest)) := by
      have key : ∀ n : Fin 256, let b := UInt8.ofNat n.val
        (authRule b = some .own ↔ (Code.from b = .AccessRequest ∨ Code.from b = .StatusServer)) ∧
        (authRule b = some .zeroed ↔ (Code.from b = .AccountingRequest ∨ Code.from b = .DisconnectRequest
          ∨ Code.from b = .CoARequest)) := by decide +kernel
      intro b
      simpa using key ⟨b.toNat, b.toNat_lt⟩
    obtain ⟨hr1, hr2⟩ := hrule (bs.getD 0 0)
    rw [hr1, hr2]
    simp only [authenticatorOf, withAuthenticator, h1, h2, ne_eq, not_false_eq_true, true_and]
    generalize (H (bs.take 4 ++ List.replicate 16 0 ++ bs.drop 20 ++ secret)).val = d
    refine ⟨?_, ?_⟩
    · cases Code.from (bs.getD 0 0) <;> exact ⟨_, rfl⟩
    · cases Code.from (bs.getD 0 0) <;>
        simp only [reduceCtorEq, false_or, or_false, true_and, false_and, or_self,
          Out.ok.injEq, Bool.false_eq_true, or_true] <;>
        exact beq_iff_eq.trans eq_comm
  · have hf : Packet.isAuthenticRequest H bs secret = .ok false := by
      unfold Packet.isAuthenticRequest
      rw [if_pos]
      simp only [RADIUS_PACKET_HEADER_LENGTH, List.isEmpty_iff]
      by_cases h1 : bs.length < 20
      · exact .inl h1
      · right
        exact Classical.byContradiction fun h2 => h ⟨by omega, h2⟩
    rw [hf]
    refine ⟨⟨_, rfl⟩, ?_⟩
    constructor
    · intro h'; cases h'
    · rintro ⟨h1, h2, _⟩; exact absurd ⟨h1, h2⟩ h

/-- **C13** `is_authentic_response` never panics and is exact. -/
theorem C13_response_check_exact (H : Hash) (resp req secret : Bytes) :
    (∃ b, Packet.isAuthenticResponse H resp req secret = .ok b) ∧
    (Packet.isAuthenticResponse H resp req secret = .ok true ↔
      20 ≤ resp.length ∧ 20 ≤ req.length ∧ secret ≠ [] ∧
      authenticatorOf resp = (H (withAuthenticator resp (authenticatorOf req) ++ secret)).val) := by
  by_cases h : 20 ≤ resp.length ∧ 20 ≤ req.length ∧ secret ≠ []
  · obtain ⟨h1, h2, h3⟩ := h
    rw [isAuthenticResponse_eq H resp req secret h1 h2 h3]
    simp only [authenticatorOf, withAuthenticator, h1, h2, h3, ne_eq, not_false_eq_true, true_and]
    exact ⟨⟨_, rfl⟩, ok_beq _ _⟩
  · have hf : Packet.isAuthenticResponse H resp req secret = .ok false := by
      unfold Packet.isAuthenticResponse
      rw [if_pos]
      simp only [RADIUS_PACKET_HEADER_LENGTH, List.isEmpty_iff]
      by_cases h1 : resp.length < 20
      · exact .inl h1
      by_cases h2 : req.length < 20
      · exact .inr (.inl h2)
      · right; right
        exact Classical.byContradiction fun h3 => h ⟨by omega, by omega, h3⟩
    rw [hf]
    refine ⟨⟨_, rfl⟩, ?_⟩
    constructor
    · intro h'; cases h'
    · rintro ⟨h1, h2, h3, _⟩; exact absurd ⟨h1, h2, h3⟩ h

/-- **C10** Encoded requests pass the request check. -/
theorem C10_own_requests_authentic (H : Hash) (ck : Bool) (p : Packet) (bs : Bytes) (hr : Reachable p)
    (hreq : authRule p.code.toU8 = some .own ∨ authRule p.code.toU8 = some .zeroed)
    (hs : p.secret ≠ []) (he : Packet.encode H ck p = .ok bs) :
    Packet.isAuthenticRequest H bs p.secret = .ok true := by
  obtain ⟨hi, lo, field, body, rfl, hf, hw, hl, hrule⟩ := C09_wire_authenticator H ck p bs hr he
  refine (C12_request_check_exact H _ _).2.2 ⟨by simp; omega, hs, ?_⟩
  have e0 : ([p.code.toU8, p.identifier, hi, lo] ++ field ++ body).getD 0 0 = p.code.toU8 := rfl
  rw [e0]
  rcases hreq with h | h
  · exact .inl h
  · refine .inr ⟨h, ?_⟩
    rw [h] at hrule
    simp only at hrule
    have e1 : authenticatorOf ([p.code.toU8, p.identifier, hi, lo] ++ field ++ body) = field := by
      simp only [authenticatorOf, List.cons_append, List.nil_append, List.drop_succ_cons, List.drop_zero]
      exact List.take_left' hf
    have e2 : withAuthenticator ([p.code.toU8, p.identifier, hi, lo] ++ field ++ body)
        (List.replicate 16 0) = [p.code.toU8, p.identifier, hi, lo] ++ List.replicate 16 0 ++ body := by
      unfold withAuthenticator
      rw [List.drop_left' (by simp; omega)]
      rfl
    rw [e1, e2]
    exact hrule

example : ∃ bs, Packet.encode Md5.md5 true (samplePacket .CoARequest) = .ok bs ∧
    Packet.isAuthenticRequest Md5.md5 bs [1, 2, 3] = .ok true ∧
    Packet.isAuthenticRequest Md5.md5 bs [1, 2, 4] = .ok false := by
  refine ⟨_, rfl, ?_⟩
  decide +kernel

theorem runEdits_fields (p : Packet) (es : List Edit) :
    (runEdits p es).code = p.code ∧ (runEdits p es).identifier = p.identifier ∧
    (runEdits p es).authenticator = p.authenticator ∧ (runEdits p es).secret = p.secret := by
  induction es generalizing p with
  | nil => exact ⟨rfl, rfl, rfl, rfl⟩
  | cons e es ih =>
    have := ih (e.run p)
    cases e <;> exact this

theorem runEdits_reachable (p : Packet) (es : List Edit) (h : Reachable p) : Reachable (runEdits p es) := by
  induction es generalizing p with
  | nil => exact h
  | cons e es ih =>
    refine ih (e.run p) ?_
    cases e
    · exact .add _ _ h
    · exact .extend _ _ h
    · exact .delete _ _ h

/-- **C11** A response made from a decoded request, edited at will, passes the requester's check. -/
theorem C11_responses_authentic (H : Hash) (ck : Bool) (d secret : Bytes) (req : Packet) (code : Code)
    (es : List Edit) (bs : Bytes)
    (hd : Packet.decode d secret = .ok req) (hcode : authRule code.toU8 = some .chained)
    (hs : secret ≠ [])
    (he : Packet.encode H ck (runEdits (req.makeResponsePacket code) es) = .ok bs) :
    Packet.isAuthenticResponse H bs d secret = .ok true ∧ bs.getD 1 0 = d.getD 1 0 ∧
      bs.getD 0 0 = code.toU8 := by
  have hr : Reachable (runEdits (req.makeResponsePacket code) es) :=
    runEdits_reachable _ _ (.makeResponsePacket _ _ (.decode d secret req hd))
  obtain ⟨hf1, hf2, hf3, hf4⟩ := runEdits_fields (req.makeResponsePacket code) es
  obtain ⟨hi, lo, field, body, rfl, hf, hw, hl, hrule⟩ := C09_wire_authenticator H ck _ bs hr he
  obtain ⟨c, hi', lo', body', padding, hdb, ha, hw', hl', hm', hc', hsec⟩ := decode_ok_elim d secret req hd
  have g1 : (req.makeResponsePacket code).code = code := rfl
  have g2 : (req.makeResponsePacket code).identifier = req.identifier := rfl
  have g3 : (req.makeResponsePacket code).authenticator = req.authenticator := rfl
  have g4 : (req.makeResponsePacket code).secret = req.secret := rfl
  rw [hf1, hf2, hf3, hf4, g1, g2, g3, g4] at hrule
  rw [hf1, hf2, g1, g2]
  rw [hcode] at hrule
  simp only at hrule
  have e1 : authenticatorOf ([code.toU8, req.identifier, hi, lo] ++ field ++ body) = field := by
    simp only [authenticatorOf, List.cons_append, List.nil_append, List.drop_succ_cons, List.drop_zero]
    exact List.take_left' hf
  have e3 : authenticatorOf d = req.authenticator := by
    rw [hdb]
    simp only [authenticatorOf, List.cons_append, List.nil_append, List.drop_succ_cons, List.drop_zero,
      List.append_assoc]
    exact List.take_left' ha
  have e2 : withAuthenticator ([code.toU8, req.identifier, hi, lo] ++ field ++ body)
      (authenticatorOf d) = [code.toU8, req.identifier, hi, lo] ++ req.authenticator ++ body := by
    unfold withAuthenticator
    rw [List.drop_left' (by simp; omega), e3]
    rfl
  refine ⟨(C13_response_check_exact H _ _ _).2.2 ⟨by simp; omega, ?_, hs, ?_⟩, ?_, rfl⟩
  · rw [hdb]; simp; omega
  · rw [e1, e2, ← hsec]; exact hrule
  · rw [hdb]; rfl

/-- C11 on a concrete request, edit history and code, with real MD5. -/
example : ∃ req bs, Packet.decode sampleDatagram [5] = .ok req ∧
    Packet.encode Md5.md5 true (runEdits (req.makeResponsePacket .AccessAccept)
      [.add ⟨18, [1]⟩, .add ⟨1, [2, 3]⟩, .delete 18]) = .ok bs ∧ bs.length = 24 ∧
    Packet.isAuthenticResponse Md5.md5 bs sampleDatagram [5] = .ok true ∧
    Packet.isAuthenticResponse Md5.md5 bs sampleDatagram [6] = .ok false := by
  refine ⟨⟨.AccessRequest, 7, (List.range 16).map UInt8.ofNat, [5], [⟨1, [0x61, 0x62]⟩]⟩, _, ?_, rfl, ?_⟩
  · decide +kernel
  · decide +kernel

/-- Rebuilding a datagram from its three pieces. -/
theorem eq_of_pieces (x y : Bytes) (h1 : x.take 4 = y.take 4)
    (h2 : authenticatorOf x = authenticatorOf y) (h3 : x.drop 20 = y.drop 20) : x = y := by
  have e : ∀ z : Bytes, z = z.take 4 ++ (authenticatorOf z ++ z.drop 20) := by
    intro z
    have : authenticatorOf z ++ z.drop 20 = z.drop 4 := by
      unfold authenticatorOf
      rw [show z.drop 20 = (z.drop 4).drop 16 by rw [List.drop_drop], List.take_append_drop]
    rw [this, List.take_append_drop]
  rw [e x, e y, h1, h2, h3]

/-- Where two datagrams differ outside the authenticator field, so do the hashed strings. -/
theorem hashed_ne (x y auth secret : Bytes) (hx : 20 ≤ x.length) (hy : 20 ≤ y.length) (hne : x ≠ y)
    (ha : authenticatorOf x = authenticatorOf y) :
    withAuthenticator x auth ++ secret ≠ withAuthenticator y auth ++ secret := by
  intro h
  apply hne
  unfold withAuthenticator at h
  simp only [List.append_assoc] at h
  obtain ⟨h1, h2⟩ := List.append_inj h (by simp; omega)
  have h3 := List.append_cancel_left h2
  have h4 := List.append_cancel_right h3
  exact eq_of_pieces x y h1 ha h4

/-- **C14** Two different datagrams with the same authenticator field that both pass the digest check give
an explicit digest collision: requests. -/
theorem C14_request_forgery_gives_collision (H : Hash) (x y secret : Bytes)
    (hx : Packet.isAuthenticRequest H x secret = .ok true)
    (hy : Packet.isAuthenticRequest H y secret = .ok true)
    (hcx : authRule (x.getD 0 0) = some .zeroed) (hcy : authRule (y.getD 0 0) = some .zeroed)
    (ha : authenticatorOf x = authenticatorOf y) (hne : x ≠ y) :
    withAuthenticator x (List.replicate 16 0) ++ secret ≠ withAuthenticator y (List.replicate 16 0) ++ secret ∧
    H (withAuthenticator x (List.replicate 16 0) ++ secret)
      = H (withAuthenticator y (List.replicate 16 0) ++ secret) := by
  obtain ⟨lx, _, hx⟩ := (C12_request_check_exact H x secret).2.1 hx
  obtain ⟨ly, _, hy⟩ := (C12_request_check_exact H y secret).2.1 hy
  rw [hcx] at hx; rw [hcy] at hy
  simp only [reduceCtorEq, false_or, true_and, Option.some.injEq] at hx hy
  exact ⟨hashed_ne x y _ secret lx ly hne ha, Subtype.ext (by rw [← hx, ← hy, ha])⟩

/-- **C14** for responses to the same request. -/
theorem C14_response_forgery_gives_collision (H : Hash) (x y req secret : Bytes)
    (hx : Packet.isAuthenticResponse H x req secret = .ok true)
    (hy : Packet.isAuthenticResponse H y req secret = .ok true)
    (ha : authenticatorOf x = authenticatorOf y) (hne : x ≠ y) :
    withAuthenticator x (authenticatorOf req) ++ secret ≠ withAuthenticator y (authenticatorOf req) ++ secret ∧
    H (withAuthenticator x (authenticatorOf req) ++ secret)
      = H (withAuthenticator y (authenticatorOf req) ++ secret) := by
  obtain ⟨lx, _, _, hx⟩ := (C13_response_check_exact H x req secret).2.1 hx
  obtain ⟨ly, _, _, hy⟩ := (C13_response_check_exact H y req secret).2.1 hy
  exact ⟨hashed_ne x y _ secret lx ly hne ha, Subtype.ext (by rw [← hx, ← hy, ha])⟩

/-- The hypotheses of C14 are satisfiable: with a (bad) constant digest, two different accounting requests
and two different responses with equal authenticator fields are both accepted. -/
example : ∃ (H : Hash) (x y : Bytes), Packet.isAuthenticRequest H x [1] = .ok true ∧
    Packet.isAuthenticRequest H y [1] = .ok true ∧ authRule (x.getD 0 0) = some .zeroed ∧
    authRule (y.getD 0 0) = some .zeroed ∧ authenticatorOf x = authenticatorOf y ∧ x ≠ y ∧
    Packet.isAuthenticResponse H x x [1] = .ok true ∧ Packet.isAuthenticResponse H y x [1] = .ok true :=
  ⟨fun _ => ⟨List.replicate 16 0, rfl⟩, 4 :: List.replicate 20 0, 4 :: 1 :: List.replicate 20 0, by decide⟩

/-! ### C59: secrets and requests are separated by the digest -/

/-- **C59** A digest-carrying request accepted under two different secrets gives an explicit digest collision. -/
theorem C59_request_two_secrets (H : Hash) (x s s' : Bytes) (hx : Packet.isAuthenticRequest H x s = .ok true)
    (hx' : Packet.isAuthenticRequest H x s' = .ok true) (hc : authRule (x.getD 0 0) = some .zeroed) (hne : s ≠ s') :
    withAuthenticator x (List.replicate 16 0) ++ s ≠ withAuthenticator x (List.replicate 16 0) ++ s' ∧
    H (withAuthenticator x (List.replicate 16 0) ++ s) = H (withAuthenticator x (List.replicate 16 0) ++ s') := by
  obtain ⟨_, _, h⟩ := (C12_request_check_exact H x s).2.1 hx
  obtain ⟨_, _, h'⟩ := (C12_request_check_exact H x s').2.1 hx'
  rw [hc] at h h'
  simp only [reduceCtorEq, false_or, true_and, Option.some.injEq] at h h'
  exact ⟨fun e => hne (List.append_cancel_left e), Subtype.ext (by rw [← h, ← h'])⟩

/-- **C59** A response accepted for two requests with different authenticators, or under two different secrets, gives
an explicit digest collision. -/
theorem C59_response_two_contexts (H : Hash) (x req req' s s' : Bytes)
    (hx : Packet.isAuthenticResponse H x req s = .ok true) (hx' : Packet.isAuthenticResponse H x req' s' = .ok true)
    (hne : authenticatorOf req ≠ authenticatorOf req' ∨ s ≠ s') :
    withAuthenticator x (authenticatorOf req) ++ s ≠ withAuthenticator x (authenticatorOf req') ++ s' ∧
    H (withAuthenticator x (authenticatorOf req) ++ s) = H (withAuthenticator x (authenticatorOf req') ++ s') := by
  obtain ⟨lx, lr, _, h⟩ := (C13_response_check_exact H x req s).2.1 hx
  obtain ⟨_, lr', _, h'⟩ := (C13_response_check_exact H x req' s').2.1 hx'
  refine ⟨fun e => ?_, Subtype.ext (by rw [← h, ← h'])⟩
  unfold withAuthenticator at e
  simp only [List.append_assoc] at e
  obtain ⟨e1, e2⟩ := List.append_inj (List.append_cancel_left e) (by
    simp only [authenticatorOf, List.length_take, List.length_drop]; omega)
  rcases hne with hne | hne
  · exact hne e1
  · exact hne (List.append_cancel_left e2)

/-- **C59** An Access-Request or Status-Server carries no digest: it passes the request check under every non-empty
secret, so that check alone says nothing about who sent it. -/
theorem C59_access_request_any_secret (H : Hash) (x s : Bytes) (hl : 20 ≤ x.length) (hs : s ≠ [])
    (hc : authRule (x.getD 0 0) = some .own) : Packet.isAuthenticRequest H x s = .ok true :=
  (C12_request_check_exact H x s).2.2 ⟨hl, hs, .inl hc⟩

/-- The hypotheses of C59 are satisfiable with a (bad) constant digest; with MD5 a response made for one request is
not accepted for another or under another secret, and an Access-Request is accepted under two secrets. -/
example : ∃ (H : Hash) (x y : Bytes), Packet.isAuthenticRequest H x [1] = .ok true ∧
    Packet.isAuthenticRequest H x [2] = .ok true ∧ authRule (x.getD 0 0) = some .zeroed ∧
    authenticatorOf x ≠ authenticatorOf y ∧
    Packet.isAuthenticResponse H x x [1] = .ok true ∧ Packet.isAuthenticResponse H x y [2] = .ok true :=
  ⟨fun _ => ⟨List.replicate 16 0, rfl⟩, 4 :: List.replicate 20 0, 4 :: List.replicate 20 1, by decide⟩
example : Packet.isAuthenticRequest Md5.md5 ([1, 9, 0, 20] ++ List.replicate 16 7) [1] = .ok true ∧
    Packet.isAuthenticRequest Md5.md5 ([1, 9, 0, 20] ++ List.replicate 16 7) [2] = .ok true := by decide +kernel

end Radius

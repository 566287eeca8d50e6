import Verif.Props.Accessors
import Verif.Model.Md5
/-! # C64: the shared secret reaches the wire only through the digest -/
namespace Radius
open Spec

/-- Two pairs of digest function and secret that give the same answers to the questions the protocol asks: the digest of
the secret followed by a chaining block of at most 18 bytes, and of at least a header's worth of bytes followed by the
secret. -/
structure SameAnswers (H : Hash) (s : Bytes) (H' : Hash) (s' : Bytes) : Prop where
  front : ∀ x : Bytes, x.length ≤ 18 → H (s ++ x) = H' (s' ++ x)
  back : ∀ x : Bytes, 20 ≤ x.length → H (x ++ s) = H' (x ++ s')
  missing : s = [] ↔ s' = []

/-- A packet with another secret. -/
def reSecret (p : Packet) (s : Bytes) : Packet := { p with secret := s }

namespace SameAnswers
variable {H H' : Hash} {s s' : Bytes}

theorem isEmpty (h : SameAnswers H s H' s') : s.isEmpty = s'.isEmpty := by
  have := h.missing
  cases s <;> cases s' <;> simp_all

theorem hideLoop (h : SameAnswers H s H' s') (cs : List Bytes) (buff enc : Bytes) (hb : buff.length ≤ 18) :
    AVP.hideLoop H s cs buff enc = AVP.hideLoop H' s' cs buff enc := by
  induction cs generalizing buff enc with
  | nil => rfl
  | cons c cs ih =>
    simp only [AVP.hideLoop, h.front buff hb]
    refine ih _ _ ?_
    have := (H' (s' ++ buff)).2
    simp only [xorBytes, List.length_zipWith]
    omega

theorem revealLoop (h : SameAnswers H s H' s') (cs : List Bytes) (buff dec : Bytes) (hb : buff.length ≤ 18)
    (hc : ∀ c ∈ cs, c.length ≤ 18) : AVP.revealLoop H s cs buff dec = AVP.revealLoop H' s' cs buff dec := by
  induction cs generalizing buff dec with
  | nil => rfl
  | cons c cs ih =>
    simp only [AVP.revealLoop, h.front buff hb]
    exact ih _ _ (hc c (by simp)) (fun c' hc' => hc c' (by simp [hc']))

end SameAnswers

theorem chunks_short (m : Nat) (l : Bytes) : ∀ c ∈ chunks m l, c.length ≤ m + 1 := by
  induction l using chunks.induct (m := m) with
  | case1 => simp [chunks]
  | case2 x xs ih =>
    intro c hc
    rw [chunks] at hc
    rcases List.mem_cons.1 hc with rfl | hc
    · simp; omega
    · exact ih c hc

/-- **C64** Encoding depends on digest and secret only through those answers. -/
theorem C64_encode {H H' : Hash} {s s' : Bytes} (h : SameAnswers H s H' s') (ck : Bool) (p : Packet)
    (hauth : p.authenticator.length = 16) :
    (reSecret p s).encode H ck = (reSecret p s').encode H' ck := by
  have hm : ∀ s, Packet.marshalBinary ck (reSecret p s) = Packet.marshalBinary ck p := fun _ => rfl
  have hh : ∀ s, Packet.hashedAuthenticator (reSecret p s) = Packet.hashedAuthenticator p := fun _ => rfl
  have hl : (Packet.hashedAuthenticator p).length = 16 := by
    unfold Packet.hashedAuthenticator
    split <;> first | rfl | exact hauth
  have key : ∀ bs : Bytes, (do
      let buf ← slice bs 0 4
      let buf := buf ++ Packet.hashedAuthenticator p
      let buf := buf ++ (← sliceFrom bs RADIUS_PACKET_HEADER_LENGTH)
      let buf := buf ++ s
      splice bs 4 20 (H buf).val : Out PacketError Bytes) = (do
      let buf ← slice bs 0 4
      let buf := buf ++ Packet.hashedAuthenticator p
      let buf := buf ++ (← sliceFrom bs RADIUS_PACKET_HEADER_LENGTH)
      let buf := buf ++ s'
      splice bs 4 20 (H' buf).val) := by
    intro bs
    by_cases h4 : 4 ≤ bs.length
    · rw [slice_of_le bs 0 4 (by omega) h4]
      simp only [Out.bind_ok]
      cases hf : (sliceFrom bs RADIUS_PACKET_HEADER_LENGTH : Out PacketError Bytes) with
      | ok rest =>
        simp only [Out.bind_ok]
        rw [h.back]
        simp only [List.length_append, List.length_take, List.length_drop, hl]
        omega
      | err e => rfl
      | panic => rfl
    · have : (slice bs 0 4 : Out PacketError Bytes) = .panic := by
        unfold slice; rw [if_neg]; omega
      rw [this]; rfl
  unfold Packet.encode
  rw [hm, hm]
  cases (Packet.marshalBinary ck p).mapErr PacketError.EncodingError with
  | err e => rfl
  | panic => rfl
  | ok bs =>
    simp only [Out.bind_ok, hh]
    show (match p.code with
      | .AccessRequest | .StatusServer => _
      | .AccessAccept | .AccessReject | .AccountingRequest | .AccountingResponse | .AccessChallenge
      | .DisconnectRequest | .DisconnectACK | .DisconnectNAK | .CoARequest | .CoAACK | .CoANAK => _
      | _ => _) = (match p.code with
      | .AccessRequest | .StatusServer => _
      | .AccessAccept | .AccessReject | .AccountingRequest | .AccountingResponse | .AccessChallenge
      | .DisconnectRequest | .DisconnectACK | .DisconnectNAK | .CoARequest | .CoAACK | .CoANAK => _
      | _ => _)
    have := key bs
    cases p.code <;> first | rfl | exact this

/-- **C64** Access-Request and Status-Server packets are encoded without digest and secret. -/
theorem C64_requests_independent (H H' : Hash) (s s' : Bytes) (ck : Bool) (p : Packet)
    (hc : authRule p.code.toU8 = some .own) : (reSecret p s).encode H ck = (reSecret p s').encode H' ck := by
  have hm : ∀ s, Packet.marshalBinary ck (reSecret p s) = Packet.marshalBinary ck p := fun _ => rfl
  unfold Packet.encode
  rw [hm, hm]
  have hcode : p.code = .AccessRequest ∨ p.code = .StatusServer := by
    revert hc; cases p.code <;> decide
  have e : ∀ s, (reSecret p s).code = p.code := fun _ => rfl
  cases (Packet.marshalBinary ck p).mapErr PacketError.EncodingError with
  | err e => rfl
  | panic => rfl
  | ok bs => rcases hcode with hc | hc <;> simp only [Out.bind_ok, e, hc]

/-- **C64** The authenticity checks. -/
theorem C64_checks {H H' : Hash} {s s' : Bytes} (h : SameAnswers H s H' s') (response request : Bytes) :
    Packet.isAuthenticResponse H response request s = Packet.isAuthenticResponse H' response request s' ∧
    Packet.isAuthenticRequest H request s = Packet.isAuthenticRequest H' request s' := by
  unfold Packet.isAuthenticResponse Packet.isAuthenticRequest
  rw [h.isEmpty]
  have e20 : RADIUS_PACKET_HEADER_LENGTH = 20 := rfl
  constructor
  · split
    · rfl
    · next hn =>
      have hl : 20 ≤ response.length ∧ 20 ≤ request.length := by
        rw [e20] at hn; omega
      rw [slice_of_le response 0 4 (by omega) (by omega), slice_of_le request 4 RADIUS_PACKET_HEADER_LENGTH (by decide) hl.2,
        sliceFrom_of_le response RADIUS_PACKET_HEADER_LENGTH hl.1]
      simp only [Out.bind_ok]
      rw [h.back]
      simp only [List.length_append, List.length_take, List.length_drop, e20]
      omega
  · split
    · rfl
    · next hn =>
      have hl : 20 ≤ request.length := by rw [e20] at hn; omega
      rw [slice_of_le request 0 4 (by omega) (by omega), sliceFrom_of_le request RADIUS_PACKET_HEADER_LENGTH hl]
      simp only [Out.bind_ok]
      rw [h.back]
      simp only [List.length_append, List.length_take, List.length_drop, e20]
      have : Packet.zeros16.length = 16 := rfl
      omega

/-- **C64** The secret given to `decode` is stored and not otherwise used. -/
theorem C64_decode (d s s' : Bytes) :
    (∀ p, Packet.decode d s = .ok p → Packet.decode d s' = .ok (reSecret p s')) ∧
    (∀ e, Packet.decode d s = .err e → Packet.decode d s' = .err e) := by
  have hok : ∀ s s' p, Packet.decode d s = .ok p → Packet.decode d s' = .ok (reSecret p s') := by
    intro s s' p hp
    obtain ⟨_, c, hc, hd⟩ := (C02_decode_iff_wire d s p).1 hp
    exact (C02_decode_iff_wire d s' _).2 ⟨rfl, c, hc, hd⟩
  exact ⟨hok s s', fun e he => (C03_decode_error_iff d s' e).2 ((C03_decode_error_iff d s e).1 he)⟩

/-- **C64** Every `add_*`: the same attributes are added, or the same error is returned. -/
theorem C64_add {H H' : Hash} {s s' : Bytes} (h : SameAnswers H s H' s') (t : AVPType) (p : Packet) (k : Kind) (v : k.Arg) :
    Gen.add H t (reSecret p s) k v =
      (reSecret (Gen.add H' t (reSecret p s') k v).1 s, (Gen.add H' t (reSecret p s') k v).2) := by
  have chk : ∀ a : Out AVPError AVP, Gen.addChecked (reSecret p s) a =
      (reSecret (Gen.addChecked (reSecret p s') a).1 s, (Gen.addChecked (reSecret p s') a).2) := by
    intro a; cases a <;> rfl
  cases k with
  | userPassword =>
    change Bytes at v
    simp only [Gen.add, Gen.addUserPassword]
    rw [← chk]
    congr 1
    show AVP.fromUserPassword H t v s p.authenticator = AVP.fromUserPassword H' t v s' p.authenticator
    unfold AVP.fromUserPassword
    rw [h.isEmpty]
    split
    · rfl
    split
    · rfl
    split
    · rfl
    · next hl =>
      have : p.authenticator.length ≤ 18 := by omega
      split
      · simp only [h.front _ this]
      · simp only [h.hideLoop _ _ _ this]
  | tunnelPassword =>
    obtain ⟨⟨r0, r1⟩, tag, v⟩ := v
    simp only [Gen.add, Gen.addTunnelPassword]
    rw [← chk]
    congr 1
    show AVP.fromTunnelPassword H r0 r1 t tag v s p.authenticator = AVP.fromTunnelPassword H' r0 r1 t tag v s' p.authenticator
    unfold AVP.fromTunnelPassword
    simp only [h.isEmpty]
    split
    · rfl
    split
    · rfl
    split
    · rfl
    · next hl =>
      have : (p.authenticator ++ [r0 ||| 128, r1]).length ≤ 18 := by simp; omega
      split
      · simp only [h.front _ this]
      · simp only [h.hideLoop _ _ _ this]
  | fixedOctets n =>
    change Bytes at v
    simp only [Gen.add, Gen.addFixedOctets]
    split <;> rfl
  | ipv4Prefix => exact chk _
  | ipv6Prefix => exact chk _
  | vsa => exact v.elim
  | taggedString => obtain ⟨tag, v⟩ := v; rfl
  | taggedInteger => obtain ⟨tag, v⟩ := v; rfl
  | taggedValueInteger => obtain ⟨tag, v⟩ := v; rfl
  | _ => rfl

theorem decode_same {H H' : Hash} {s s' : Bytes} (h : SameAnswers H s H' s') (p : Packet) (k : Kind) (a : AVP) :
    Gen.decode H (reSecret p s) k a = Gen.decode H' (reSecret p s') k a := by
  cases k with
  | userPassword =>
    show a.encodeUserPassword H s p.authenticator = a.encodeUserPassword H' s' p.authenticator
    unfold AVP.encodeUserPassword
    rw [h.isEmpty]
    split
    · rfl
    split
    · rfl
    split
    · rfl
    · rw [h.revealLoop _ _ _ (by omega) (fun c hc => by have := chunks_short 15 _ c hc; omega)]
  | tunnelPassword =>
    show a.encodeTunnelPassword H s p.authenticator = a.encodeTunnelPassword H' s' p.authenticator
    unfold AVP.encodeTunnelPassword
    split
    · rfl
    · next hn =>
      rw [slice_of_le a.value 1 3 (by omega) (by omega), sliceFrom_of_le a.value 3 (by omega)]
      simp only [Out.bind_ok, h.isEmpty]
      by_cases hl : p.authenticator.length = 16
      · rw [h.revealLoop _ (p.authenticator ++ _) _
          (by simp only [List.length_append, List.length_take, List.length_drop]; omega)
          (fun c hc => by have := chunks_short 15 _ c hc; omega)]
      · simp only [ne_eq, hl, not_false_eq_true, if_true]
  | _ => rfl

/-- **C64** Every `lookup_*` and `lookup_all_*`. -/
theorem C64_lookup {H H' : Hash} {s s' : Bytes} (h : SameAnswers H s H' s') (t : AVPType) (p : Packet) (k : Kind) :
    Gen.lookup H t (reSecret p s) k = Gen.lookup H' t (reSecret p s') k ∧
    Gen.lookupAll H t (reSecret p s) k = Gen.lookupAll H' t (reSecret p s') k := by
  have e : Gen.decode H (reSecret p s) k = Gen.decode H' (reSecret p s') k := funext (decode_same h p k)
  constructor
  · by_cases hk : Gen.hasLookupAll k = true
    · rw [lookup_of_kind H t _ k hk, lookup_of_kind H' t _ k hk, e]; rfl
    · cases k <;> first | rfl | exact absurd rfl hk
  · unfold Gen.lookupAll
    rw [e]; rfl

/-- One thing a program does to a packet. -/
inductive Act where
  | add (t : AVPType) (k : Kind) (v : k.Arg)
  | delete (t : AVPType)
  | setIdentifier (i : UInt8)
  | respond (c : Code)

/-- Doing it. -/
def Act.run (H : Hash) (p : Packet) : Act → Packet
  | .add t k v => (Gen.add H t p k v).1
  | .delete t => p.delete t
  | .setIdentifier i => p.setIdentifier i
  | .respond c => p.makeResponsePacket c

/-- Doing many, one after the other. -/
def runActs (H : Hash) (p : Packet) (as : List Act) : Packet := as.foldl (Act.run H) p

theorem Act.run_authenticator (H : Hash) (p : Packet) (a : Act) : (a.run H p).authenticator = p.authenticator := by
  cases a with
  | add t k v =>
    have chk : ∀ x : Out AVPError AVP, (Gen.addChecked p x).1.authenticator = p.authenticator := by
      intro x; cases x <;> rfl
    cases k with
    | userPassword => exact chk _
    | tunnelPassword => obtain ⟨⟨r0, r1⟩, tag, v⟩ := v; exact chk _
    | fixedOctets n =>
      simp only [Act.run, Gen.add, Gen.addFixedOctets]
      split <;> rfl
    | ipv4Prefix => exact chk _
    | ipv6Prefix => exact chk _
    | vsa => exact v.elim
    | taggedString => obtain ⟨tag, v⟩ := v; rfl
    | taggedInteger => obtain ⟨tag, v⟩ := v; rfl
    | taggedValueInteger => obtain ⟨tag, v⟩ := v; rfl
    | _ => rfl
  | delete t => rfl
  | setIdentifier i => rfl
  | respond c => rfl

theorem reSecret_self (p : Packet) : reSecret p p.secret = p := rfl

/-- **C64** A whole conversation seen from outside. A program starts from a received datagram or from a fresh packet
(`p`, any packet with an authenticator of 16 bytes), and reads, adds, deletes, renames and answers as it likes. What it
puts on the wire, and what it reads on the way, is the same for every digest function and secret with the same answers:
the secret leaves the process only inside a digest, never in the clear. -/
theorem C64_conversation {H H' : Hash} {s s' : Bytes} (h : SameAnswers H s H' s') (ck : Bool) (p : Packet)
    (hauth : p.authenticator.length = 16) (as : List Act) :
    (runActs H (reSecret p s) as).encode H ck = (runActs H' (reSecret p s') as).encode H' ck ∧
    ∀ t k, Gen.lookup H t (runActs H (reSecret p s) as) k = Gen.lookup H' t (runActs H' (reSecret p s') as) k ∧
      Gen.lookupAll H t (runActs H (reSecret p s) as) k = Gen.lookupAll H' t (runActs H' (reSecret p s') as) k := by
  have key : ∀ (as : List Act) (p : Packet), p.authenticator.length = 16 → ∃ q, q.authenticator.length = 16 ∧
      runActs H (reSecret p s) as = reSecret q s ∧ runActs H' (reSecret p s') as = reSecret q s' := by
    intro as
    induction as with
    | nil => intro p hp; exact ⟨p, hp, rfl, rfl⟩
    | cons a as ih =>
      intro p hp
      have step : ∃ q, q.authenticator.length = 16 ∧
          a.run H (reSecret p s) = reSecret q s ∧ a.run H' (reSecret p s') = reSecret q s' := by
        cases a with
        | add t k v =>
          refine ⟨(Gen.add H' t (reSecret p s') k v).1, ?_, ?_, ?_⟩
          · rw [show (Gen.add H' t (reSecret p s') k v).1.authenticator = _ from
              Act.run_authenticator H' (reSecret p s') (.add t k v)]
            exact hp
          · show (Gen.add H t (reSecret p s) k v).1 = _
            rw [C64_add h]
          · have e : ∀ q : Packet, q.secret = s' → q = reSecret q s' := by rintro ⟨⟩ rfl; rfl
            refine e _ ?_
            have h2 : SameAnswers H' s' H' s' := ⟨fun _ _ => rfl, fun _ _ => rfl, Iff.rfl⟩
            have := C64_add h2 t p k v
            show (Gen.add H' t (reSecret p s') k v).1.secret = s'
            rw [this]; rfl
        | delete t => exact ⟨p.delete t, hp, rfl, rfl⟩
        | setIdentifier i => exact ⟨p.setIdentifier i, hp, rfl, rfl⟩
        | respond c => exact ⟨p.makeResponsePacket c, hp, rfl, rfl⟩
      obtain ⟨q, hq, e1, e2⟩ := step
      obtain ⟨r, hr, f1, f2⟩ := ih q hq
      refine ⟨r, hr, ?_, ?_⟩
      · show runActs H (a.run H (reSecret p s)) as = _
        rw [e1, f1]
      · show runActs H' (a.run H' (reSecret p s')) as = _
        rw [e2, f2]
  obtain ⟨q, hq, e1, e2⟩ := key as p hauth
  rw [e1, e2]
  exact ⟨C64_encode h ck q hq, fun t k => C64_lookup h t q k⟩

/-- **C64** The same for programs that start from a packet made with `Packet::new` or `Packet::new_with_identifier`, or from a
datagram decoded with the secret: making and decoding packets lets nothing of the secret into the other fields. -/
theorem C64_from_the_start {H H' : Hash} {s s' : Bytes} (h : SameAnswers H s H' s') (ck : Bool) (as : List Act) :
    (∀ rng code, (runActs H (Packet.new rng code s) as).encode H ck = (runActs H' (Packet.new rng code s') as).encode H' ck ∧
      ∀ t k, Gen.lookup H t (runActs H (Packet.new rng code s) as) k =
        Gen.lookup H' t (runActs H' (Packet.new rng code s') as) k) ∧
    (∀ rng code i, (runActs H (Packet.newWithIdentifier rng code s i) as).encode H ck =
        (runActs H' (Packet.newWithIdentifier rng code s' i) as).encode H' ck ∧
      ∀ t k, Gen.lookup H t (runActs H (Packet.newWithIdentifier rng code s i) as) k =
        Gen.lookup H' t (runActs H' (Packet.newWithIdentifier rng code s' i) as) k) ∧
    (∀ d p, Packet.decode d s = .ok p → ∃ p', Packet.decode d s' = .ok p' ∧
      (runActs H p as).encode H ck = (runActs H' p' as).encode H' ck ∧
      ∀ t k, Gen.lookup H t (runActs H p as) k = Gen.lookup H' t (runActs H' p' as) k) := by
  have e : ∀ rng code s s', Packet.new rng code s' = reSecret (Packet.new rng code s) s' := fun _ _ _ _ => rfl
  have e' : ∀ rng code s s' i, Packet.newWithIdentifier rng code s' i = reSecret (Packet.newWithIdentifier rng code s i) s' :=
    fun _ _ _ _ _ => rfl
  refine ⟨fun rng code => ?_, fun rng code i => ?_, fun d p hd => ?_⟩
  · have := C64_conversation h ck (Packet.new rng code s) (by simp [Packet.new, Packet.newInner]) as
    rw [← e rng code s s', ← e rng code s s] at this
    exact ⟨this.1, fun t k => (this.2 t k).1⟩
  · have := C64_conversation h ck (Packet.newWithIdentifier rng code s i)
      (by simp [Packet.newWithIdentifier, Packet.newInner]) as
    rw [← e' rng code s s' i, ← e' rng code s s i] at this
    exact ⟨this.1, fun t k => (this.2 t k).1⟩
  · have hp : p = reSecret p s := by
      have h1 := (C64_decode d s s).1 p hd
      rw [hd] at h1
      exact Out.ok.inj h1
    have hl : p.authenticator.length = 16 := (C08_authenticator_and_no_panic H p (.decode d s p hd)).1
    have := C64_conversation h ck p hl as
    rw [← hp] at this
    exact ⟨_, (C64_decode d s s').1 p hd, this.1, fun t k => (this.2 t k).1⟩

/-- A digest function that answers for `s'` as `H` does for `s`. -/
def relabel (H : Hash) (s s' : Bytes) : Hash := fun y =>
  if y.length ≤ s'.length + 18 then H (s ++ y.drop s'.length) else H (y.take (y.length - s'.length) ++ s)

/-- **C64** Every two non-empty secrets are related in this way, whatever the digest function: nothing observable,
however many packets are exchanged, excludes a secret as long as the digest is not looked into. So the hypothesis of
the theorems above is never vacuous. -/
theorem C64_no_secret_excluded (H : Hash) (s s' : Bytes) (hs : s ≠ []) (hs' : s' ≠ []) :
    SameAnswers H s (relabel H s s') s' := by
  refine ⟨fun x hx => ?_, fun x hx => ?_, by simp [hs, hs']⟩
  · unfold relabel
    rw [if_pos (by simp; omega)]
    simp
  · unfold relabel
    rw [if_neg (by simp; omega)]
    simp

/-- The secret does matter: with MD5, Access-Accept packets that differ only in the secret are encoded differently. -/
example : (match (Packet.mk .AccessAccept 1 (List.replicate 16 0) [1] []).encode Md5.md5 true,
      (Packet.mk .AccessAccept 1 (List.replicate 16 0) [2] []).encode Md5.md5 true with
    | .ok a, .ok b => a != b
    | _, _ => false) = true := by decide +kernel

/-- The theorem at work: two secrets, a password and a tunnel password added, and a response encoded; the bytes are the
same with MD5 and one secret, and with the relabelled function and the other. -/
example : (runActs Md5.md5 (reSecret (Packet.mk .AccessRequest 1 (List.replicate 16 7) [] []) [1, 2, 3])
      [.add 2 .userPassword [97, 98], .respond .AccessAccept, .add 69 .tunnelPassword ((1, 2), none, [99])]).encode Md5.md5 true =
    (runActs (relabel Md5.md5 [1, 2, 3] [9]) (reSecret (Packet.mk .AccessRequest 1 (List.replicate 16 7) [] []) [9])
      [.add 2 .userPassword [97, 98], .respond .AccessAccept, .add 69 .tunnelPassword ((1, 2), none, [99])]).encode
        (relabel Md5.md5 [1, 2, 3] [9]) true :=
  (C64_conversation (C64_no_secret_excluded Md5.md5 [1, 2, 3] [9] (by decide) (by decide)) true _ (by decide) _).1

end Radius

import Verif.Props.AttributeList
import Verif.Props.Accessors
/-! # C55, C57, C58, C60: order on the wire, injectivity, padding and truncation, typed reads after transport -/
namespace Radius
open Spec

/-! ### C55: attribute order -/

theorem attributes_runEdits (p : Packet) (es : List Edit) :
    (runEdits p es).attributes = p.attributes.filter (fun a => !deleted a.typ es) ++ survivors es := by
  induction es generalizing p with
  | nil =>
    have : p.attributes.filter (fun a => !deleted a.typ []) = p.attributes := by
      rw [List.filter_eq_self]; intro a _; rfl
    rw [this]; simp [runEdits, survivors]
  | cons e es ih =>
    have hstep := ih (e.run p)
    have hrun : runEdits p (e :: es) = runEdits (e.run p) es := rfl
    rw [hrun, hstep]
    cases e with
    | add a =>
      have : (fun b : AVP => !deleted b.typ (.add a :: es)) = fun b => !deleted b.typ es := by
        funext b; simp [deleted]
      rw [this]
      simp only [Edit.run, Packet.add, Attributes.add, survivors, List.filter_append, List.append_assoc]
    | extend as =>
      have : (fun b : AVP => !deleted b.typ (.extend as :: es)) = fun b => !deleted b.typ es := by
        funext b; simp [deleted]
      rw [this]
      simp only [Edit.run, Packet.extend, Attributes.extend, survivors, List.filter_append, List.append_assoc]
    | delete t =>
      have : (fun b : AVP => !deleted b.typ (.delete t :: es)) = fun b => !deleted b.typ es && b.typ != t := by
        funext b
        by_cases h : b.typ = t
        · subst h; simp [deleted]
        · have h' : t ≠ b.typ := fun e => h e.symm
          have e1 : (t == b.typ) = false := beq_false_of_ne h'
          have e2 : (b.typ != t) = true := bne_iff_ne.2 h
          rw [e2]; simp only [deleted, List.any_cons, e1, Bool.false_or, Bool.and_true]
      rw [this]
      simp only [Edit.run, Packet.delete, Attributes.del, survivors, List.filter_filter]

/-- **C55** The attribute part of an encoded packet consists of the surviving attributes, in the order in which they
were put in, after those the packet started with. -/
theorem C55_wire_order (H : Hash) (ck : Bool) (p : Packet) (es : List Edit) (bs : Bytes) (hr : Reachable p)
    (he : Packet.encode H ck (runEdits p es) = .ok bs) :
    AttrsWire (p.attributes.filter (fun a => !deleted a.typ es) ++ survivors es) (bs.drop 20) := by
  obtain ⟨hi, lo, field, body, rfl, hf, hw, _⟩ := C09_wire_authenticator H ck _ bs (runEdits_reachable _ _ hr) he
  rw [attributes_runEdits] at hw
  have : ([(runEdits p es).code.toU8, (runEdits p es).identifier, hi, lo] ++ field ++ body).drop 20 = body :=
    List.drop_left' (by simp [hf])
  rw [this]; exact hw

/-- **C55** What the receiver of a packet that was built by a constructor and any edits decodes: exactly the surviving
attributes in order. -/
theorem C55_received_order (H : Hash) (ck : Bool) (rng : Nat → UInt8) (code : Code) (secret secret' : Bytes)
    (es : List Edit) (bs : Bytes) (q : Packet)
    (he : Packet.encode H ck (runEdits (Packet.new rng code secret) es) = .ok bs)
    (hsz : bs.length < 65536) (hd : Packet.decode bs secret' = .ok q) : q.attributes = survivors es := by
  have hw := C55_wire_order H ck _ es bs (.new rng code secret) he
  have hm := C06_length_field_mod H ck _ bs (runEdits_reachable _ es (.new rng code secret)) he
  obtain ⟨c, hi, lo, body, padding, hb, ha, hw', hl, _, _, _⟩ := decode_ok_elim bs secret' q hd
  have hlen : headerLength bs = 20 + body.length := by rw [← hl, hb]; rfl
  have hbl : bs.length = 20 + body.length + padding.length := by
    rw [hb]; simp only [List.length_append, List.length_cons, List.length_nil, ha]
  rw [Nat.mod_eq_of_lt hsz] at hm
  have hp : padding = [] := List.length_eq_zero_iff.1 (by omega)
  have hdrop : bs.drop 20 = body := by
    rw [hb, hp, List.append_nil]
    exact List.drop_left' (by simp [ha])
  rw [hdrop] at hw
  rw [hw'.unique hw]
  rfl

/-- **C55** A packet that was received, edited and sent on keeps the received attributes that were not deleted, in
order, ahead of the new ones. -/
theorem C55_forwarded_order (H : Hash) (ck : Bool) (d secret : Bytes) (c i : UInt8) (auth : Bytes) (attrs : List AVP)
    (p : Packet) (es : List Edit) (bs : Bytes) (hD : Datagram d c i auth attrs)
    (hd : Packet.decode d secret = .ok p) (he : Packet.encode H ck (runEdits p es) = .ok bs) :
    AttrsWire (attrs.filter (fun a => !deleted a.typ es) ++ survivors es) (bs.drop 20) := by
  have hp : p.attributes = attrs := by
    have hq := (C02_decode_iff_wire d secret ⟨Code.from c, i, auth, secret, attrs⟩).2
      ⟨rfl, c, code_from_string c, hD⟩
    rw [hd] at hq
    rw [Out.ok.inj hq]
  have := C55_wire_order H ck p es bs (.decode d secret p hd) he
  rw [hp] at this; exact this

/-- A concrete history: types interleave, a deletion in the middle. -/
example : survivors [.add ⟨1, [9]⟩, .add ⟨2, [8]⟩, .delete 1, .extend [⟨1, [4]⟩, ⟨2, [5]⟩], .add ⟨1, [6]⟩]
    = [⟨2, [8]⟩, ⟨1, [4]⟩, ⟨2, [5]⟩, ⟨1, [6]⟩] := by decide +kernel
example : (match Packet.encode Md5.md5 true (runEdits (samplePacket .AccessRequest)
      [.add ⟨7, [9]⟩, .add ⟨2, [8]⟩, .delete 7, .add ⟨7, [6]⟩]) with
    | .ok bs => bs.drop (bs.length - 6) == [2, 3, 8, 7, 3, 6] | _ => false) = true := by decide +kernel

/-! ### C57: encoding is injective -/

theorem toU8_inj_of_encodable {a b : Code} (ha : ¬ unencodable a) (hb : ¬ unencodable b) (h : a.toU8 = b.toU8) :
    a = b := by
  cases a <;> cases b <;> first | rfl | exact absurd h (by decide) | exact absurd (by simp [unencodable]) ha | exact absurd (by simp [unencodable]) hb

/-- **C57** Two packets with the same encoding have the same code, identifier and attribute list, and, where the code
carries the authenticator as it is, the same authenticator. -/
theorem C57_encode_injective (H : Hash) (ck ck' : Bool) (p q : Packet) (bs : Bytes) (hp : Reachable p) (hq : Reachable q)
    (hep : Packet.encode H ck p = .ok bs) (heq : Packet.encode H ck' q = .ok bs) :
    p.getCode = q.getCode ∧ p.getIdentifier = q.getIdentifier ∧ p.attributes = q.attributes ∧
      (authRule p.code.toU8 = some .own → p.getAuthenticator = q.getAuthenticator) := by
  obtain ⟨_, _, _, _, _, _, hcp, _⟩ := encode_ok_elim H ck p bs (reachable_auth hp) hep
  obtain ⟨_, _, _, _, _, _, hcq, _⟩ := encode_ok_elim H ck' q bs (reachable_auth hq) heq
  obtain ⟨hi, lo, f, w, hb, hf, hw, _, hrule⟩ := C09_wire_authenticator H ck p bs hp hep
  obtain ⟨hi', lo', f', w', hb', hf', hw', _, hrule'⟩ := C09_wire_authenticator H ck' q bs hq heq
  rw [hb] at hb'
  obtain ⟨h1, h2⟩ := List.append_inj hb' (by simp [hf, hf'])
  obtain ⟨h3, h4⟩ := List.append_inj h1 (by simp)
  have hcode : p.code = q.code := toU8_inj_of_encodable hcp hcq (List.cons.inj h3).1
  subst h2 h4
  refine ⟨hcode, (List.cons.inj (List.cons.inj h3).2).1, hw.unique hw', ?_⟩
  intro hown
  rw [hown] at hrule
  rw [← hcode, hown] at hrule'
  exact hrule.symm.trans hrule'

/-- The hypotheses hold for two packets that differ in their secret only. -/
example (H : Hash) : Reachable (samplePacket .AccessRequest) ∧
    Packet.encode H true (Packet.newWithIdentifier (fun _ => 3) .AccessRequest [1] 9)
      = Packet.encode H true (Packet.newWithIdentifier (fun _ => 3) .AccessRequest [2] 9) ∧
    (∃ bs, Packet.encode H true (Packet.newWithIdentifier (fun _ => 3) .AccessRequest [1] 9) = .ok bs) :=
  ⟨samplePacket_reachable _, rfl, _, rfl⟩

/-! ### C58: padding and truncation -/

/-- **C58** Bytes after the length announced in the header change nothing, and cutting inside that length is always
detected: for a datagram that decodes, a prefix decodes exactly if it has at least the announced length, and then to
the same packet. -/
theorem C58_padding_and_truncation (d secret : Bytes) (p : Packet) (hd : Packet.decode d secret = .ok p) :
    (∀ pad, Packet.decode (d ++ pad) secret = .ok p) ∧
    (∀ n, headerLength d ≤ n → Packet.decode (d.take n) secret = .ok p) ∧
    (∀ n, n < headerLength d → Packet.decode (d.take n) secret
      = .err (.InsufficientPacketPayloadLengthError (if n < 20 then 20 else headerLength d) n)) := by
  obtain ⟨c, hi, lo, body, padding, hb, ha, hw, hl, hm, hc, hs⟩ := decode_ok_elim d secret p hd
  have hpk : (⟨Code.from c, p.identifier, p.authenticator, secret, p.attributes⟩ : Packet) = p := by
    rw [← hc, ← hs]
  have hlen : headerLength d = 20 + body.length := by rw [← hl, hb]; rfl
  have hall : ∀ pad, Packet.decode ([c, p.identifier, hi, lo] ++ p.authenticator ++ body ++ pad) secret = .ok p := by
    intro pad
    rw [decode_parts c p.identifier hi lo p.authenticator body pad secret p.attributes ha hw hl hm, hpk]
  have hpre : ([c, p.identifier, hi, lo] ++ p.authenticator ++ body).length = 20 + body.length := by
    simp only [List.length_append, List.length_cons, List.length_nil, ha]
  refine ⟨fun pad => ?_, fun n hn => ?_, fun n hn => ?_⟩
  · rw [hb, List.append_assoc _ padding pad]; exact hall _
  · rw [hb, List.take_append, List.take_of_length_le (by omega)]; exact hall _
  · have hdl : n < d.length := by
      rw [hb, List.length_append]; omega
    have htl : (d.take n).length = n := by rw [List.length_take]; omega
    rw [C03_decode_error_iff]
    by_cases h20 : n < 20
    · rw [if_pos h20]
      have := DecodeError.shortBuffer (bs := d.take n) (by omega)
      rwa [htl] at this
    · rw [if_neg h20]
      have hh : headerLength (d.take n) = headerLength d := by
        unfold headerLength
        simp only [List.getD_eq_getElem?_getD]
        rw [List.getElem?_take_of_lt (by omega), List.getElem?_take_of_lt (by omega)]
      have := DecodeError.truncated (bs := d.take n) (by omega) (by omega) (by omega) (by omega)
      rwa [htl, hh] at this

/-- A 23-byte packet, its padded version and its prefixes. -/
example : Packet.decode ([1, 9, 0, 23] ++ List.replicate 16 7 ++ [1, 3, 65]) [1]
    = .ok ⟨.AccessRequest, 9, List.replicate 16 7, [1], [⟨1, [65]⟩]⟩ := by decide +kernel

/-! ### C60: typed reads after transport -/

/-- Families whose reading uses the authenticator of the packet. -/
def Kind.isPassword : Kind → Bool
  | .userPassword => true
  | .tunnelPassword => true
  | _ => false

/-- **C60** Whatever typed value (or error, or absence) the sender reads from its packet, the receiver of the encoded
packet reads too, for every attribute type and family; for the password families if the code carries the
authenticator as it is. -/
theorem C60_typed_reads_survive_transport (H : Hash) (ck : Bool) (p q : Packet) (bs : Bytes) (hr : Reachable p)
    (hsz : wireSize p.attributes < 65516) (he : Packet.encode H ck p = .ok bs)
    (hd : Packet.decode bs p.secret = .ok q) (t : AVPType) (k : Kind)
    (hk : k.isPassword = false ∨ p.code = .AccessRequest ∨ p.code = .StatusServer) :
    Gen.lookup H t q k = Gen.lookup H t p k ∧ Gen.lookupAll H t q k = Gen.lookupAll H t p k := by
  obtain ⟨h1, h2⟩ := C04_encode_decode H ck p bs hr hsz he
  rcases hk with hk | hk
  · rw [h1] at hd
    obtain rfl := Out.ok.inj hd
    have hdec : Gen.decode H { p with authenticator := authenticatorOf bs } k = Gen.decode H p k := by
      cases k <;> first | rfl | cases hk
    constructor
    · cases k <;> first | rfl | cases hk
    · unfold Gen.lookupAll
      rw [hdec]; rfl
  · rw [h2 hk] at hd
    rw [Out.ok.inj hd]; exact ⟨rfl, rfl⟩

/-- Without the condition on the code a password does not survive: the authenticator of a response is replaced. -/
example : ∃ bs q, Packet.encode Md5.md5 true (samplePacket .AccessAccept) = .ok bs ∧
    Packet.decode bs (samplePacket .AccessAccept).secret = .ok q ∧
    q.authenticator ≠ (samplePacket .AccessAccept).authenticator := by
  have key : (match Packet.encode Md5.md5 true (samplePacket .AccessAccept) with
    | .ok bs => (match Packet.decode bs (samplePacket .AccessAccept).secret with
      | .ok q => q.authenticator != (samplePacket .AccessAccept).authenticator
      | _ => false)
    | _ => false) = true := by decide +kernel
  split at key
  · rename_i bs h
    split at key
    · rename_i q hq
      exact ⟨bs, q, h, hq, by simpa using key⟩
    · cases key
  · cases key

end Radius

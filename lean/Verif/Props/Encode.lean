import Verif.Props.Decode
import Verif.Model.Md5
/-! # C04 - C09: encoding -/
namespace Radius
open Spec

/-- A sample packet: Access-Accept with two attributes, made by the public API. -/
def samplePacket (code : Code) : Packet :=
  ((Packet.newWithIdentifier (fun k => UInt8.ofNat (k * 7)) code [1, 2, 3] 9).add ⟨1, [0x61, 0x62]⟩).add
    ⟨18, [0x63]⟩

theorem samplePacket_reachable (code : Code) : Reachable (samplePacket code) :=
  .add _ _ (.add _ _ (.newWithIdentifier _ _ _ _))

/-- `n` attributes with `k` zero bytes each. -/
def zeroAttrs (n k : Nat) : List AVP := List.replicate n ⟨26, List.replicate k 0⟩

theorem zeroAttrs_wireSize (n k : Nat) : wireSize (zeroAttrs n k) = n * (k + 2) := by
  simp [wireSize, zeroAttrs]

theorem zeroAttrs_length (n k : Nat) : ∀ a ∈ zeroAttrs n k, a.value.length = k := by
  intro a ha
  rw [List.eq_of_mem_replicate ha]; simp

theorem wireSize_append (xs ys : List AVP) : wireSize (xs ++ ys) = wireSize xs + wireSize ys := by
  simp [wireSize]

/-- A packet whose attributes take 65790 bytes: 258 attributes of 253 bytes. -/
def hugePacket : Packet :=
  (Packet.newWithIdentifier (fun _ => 0) .AccessRequest [1] 9).extend (zeroAttrs 258 253)

theorem hugePacket_reachable : Reachable hugePacket := .extend _ _ (.newWithIdentifier _ _ _ _)

/-- **C04** Encoding then decoding. `65516 = 65536 - 20`: beyond it the 16-bit size computation of
`marshal_binary` wraps. -/
theorem C04_encode_decode (H : Hash) (ck : Bool) (p : Packet) (bs : Bytes)
    (hr : Reachable p) (hsz : wireSize p.attributes < 65516) (he : Packet.encode H ck p = .ok bs) :
    Packet.decode bs p.secret = .ok { p with authenticator := authenticatorOf bs } ∧
    (p.code = .AccessRequest ∨ p.code = .StatusServer → Packet.decode bs p.secret = .ok p) := by
  have ha := reachable_auth hr
  obtain ⟨w, hi, lo, hw, hl, hm, hc, rfl⟩ := encode_ok_elim H ck p bs ha he
  have hwl := hw.length
  have hfl := authField_length H p [p.code.toU8, p.identifier, hi, lo] w ha
  generalize hf : authField H p [p.code.toU8, p.identifier, hi, lo] w = f at *
  have hauth : authenticatorOf ([p.code.toU8, p.identifier, hi, lo] ++ f ++ w) = f := by
    simp only [authenticatorOf, List.cons_append, List.nil_append, List.drop_succ_cons, List.drop_zero]
    exact List.take_left' hfl
  have hd := decode_parts p.code.toU8 p.identifier hi lo f w [] p.secret p.attributes hfl hw
    (by omega) (by omega)
  rw [List.append_nil, code_from_toU8] at hd
  rw [hauth, hd]
  refine ⟨rfl, ?_⟩
  intro hcode
  have : f = p.authenticator := by
    rw [← hf]; unfold authField
    rcases hcode with h | h <;> rw [h]
  rw [this]

/-- C04 applies to concrete packets, with real MD5. -/
example : ∃ bs, Packet.encode Md5.md5 true (samplePacket .AccessAccept) = .ok bs ∧ bs.length = 27 ∧
    Packet.decode bs [1, 2, 3] =
      .ok { samplePacket .AccessAccept with authenticator := authenticatorOf bs } ∧
    Packet.decode bs [1, 2, 3] ≠ .ok (samplePacket .AccessAccept) := by
  refine ⟨_, rfl, ?_⟩
  decide +kernel
example : ∃ bs, Packet.encode Md5.md5 true (samplePacket .AccessRequest) = .ok bs ∧
    Packet.decode bs [1, 2, 3] = .ok (samplePacket .AccessRequest) := by
  refine ⟨_, rfl, ?_⟩
  decide +kernel
example : wireSize (samplePacket .AccessAccept).attributes < 65516 := by decide

/-- **C05** Decoding then encoding an Access-Request or Status-Server is byte exact on the first `L` bytes. -/
theorem C05_decode_encode (H : Hash) (ck : Bool) (bs secret : Bytes) (p : Packet)
    (hd : Packet.decode bs secret = .ok p) (hc : p.code = .AccessRequest ∨ p.code = .StatusServer) :
    Packet.encode H ck p = .ok (bs.take (headerLength bs)) := by
  obtain ⟨c, hi, lo, body, padding, hb, ha, hw, hl, hm, hcode, hsec⟩ := decode_ok_elim bs secret p hd
  obtain ⟨w, hi', lo', hw', hl', he⟩ := encode_spec H ck p ha hw.small
  have : w = body := hw'.functional hw
  subst this
  have hcb : p.code.toU8 = c := by
    have key : ∀ n : Fin 256, (Code.from (UInt8.ofNat n.val) = .AccessRequest ∨
        Code.from (UInt8.ofNat n.val) = .StatusServer) →
        (Code.from (UInt8.ofNat n.val)).toU8 = UInt8.ofNat n.val := by decide +kernel
    have := key ⟨c.toNat, c.toNat_lt⟩
    simp only [UInt8.ofNat_toNat] at this
    rw [hcode]; exact this (hcode ▸ hc)
  have hhi := hi.toNat_lt; have hlo := lo.toNat_lt; have hhi' := hi'.toNat_lt; have hlo' := lo'.toNat_lt
  have e1 : hi' = hi := UInt8.toNat.inj (by omega)
  have e2 : lo' = lo := UInt8.toNat.inj (by omega)
  have hnu : ¬ unencodable p.code := by
    rcases hc with h | h <;> rw [h] <;> decide
  have hf : authField H p [p.code.toU8, p.identifier, hi', lo'] w = p.authenticator := by
    unfold authField
    rcases hc with h | h <;> rw [h]
  rw [he, if_neg (by omega), if_neg (by omega), if_neg hnu, hf, hcb, e1, e2]
  have hH : headerLength bs = 20 + w.length := by
    rw [hb]; simpa [headerLength] using hl
  rw [hH, hb, List.take_left' (by simp; omega)]

example : Packet.encode Md5.md5 true
    ⟨.AccessRequest, 7, (List.range 16).map UInt8.ofNat, [1], [⟨1, [0x61, 0x62]⟩]⟩
      = .ok (sampleDatagram.take 24) := by decide +kernel

/-- **C06** (partial). The full claim — for every packet obtainable by the API, if `encode` returns bytes
then their number is in the length field and at most 4096 — is false, see `C06_counterexample`; it holds as
long as the attributes take less than 65516 bytes. -/
theorem C06_length_field_partial (H : Hash) (ck : Bool) (p : Packet) (bs : Bytes)
    (hr : Reachable p) (hsz : wireSize p.attributes < 65516) (he : Packet.encode H ck p = .ok bs) :
    headerLength bs = bs.length ∧ 20 ≤ bs.length ∧ bs.length ≤ 4096 ∧
      bs.length = 20 + wireSize p.attributes := by
  have ha := reachable_auth hr
  obtain ⟨w, hi, lo, hw, hl, hm, hc, rfl⟩ := encode_ok_elim H ck p bs ha he
  have hwl := hw.length
  have hfl := authField_length H p [p.code.toU8, p.identifier, hi, lo] w ha
  have hlen : ([p.code.toU8, p.identifier, hi, lo] ++
      authField H p [p.code.toU8, p.identifier, hi, lo] w ++ w).length = 20 + w.length := by
    simp; omega
  have hh : headerLength ([p.code.toU8, p.identifier, hi, lo] ++
      authField H p [p.code.toU8, p.identifier, hi, lo] w ++ w) = hi.toNat * 256 + lo.toNat := by
    simp [headerLength]
  rw [hlen, hh]
  omega

theorem hugePacket_wireSize : wireSize hugePacket.attributes = 65790 := by
  have : hugePacket.attributes = [] ++ zeroAttrs 258 253 := rfl
  rw [this, List.nil_append, zeroAttrs_wireSize]

/-- **C06**, what is true of every packet: the length field is the true length modulo 65536 and at most 4096. -/
theorem C06_length_field_mod (H : Hash) (ck : Bool) (p : Packet) (bs : Bytes)
    (hr : Reachable p) (he : Packet.encode H ck p = .ok bs) :
    headerLength bs = bs.length % 65536 ∧ headerLength bs ≤ 4096 ∧
      bs.length = 20 + wireSize p.attributes := by
  have ha := reachable_auth hr
  obtain ⟨w, hi, lo, hw, hl, hm, hc, rfl⟩ := encode_ok_elim H ck p bs ha he
  have hwl := hw.length
  have hfl := authField_length H p [p.code.toU8, p.identifier, hi, lo] w ha
  have hlen : ([p.code.toU8, p.identifier, hi, lo] ++
      authField H p [p.code.toU8, p.identifier, hi, lo] w ++ w).length = 20 + w.length := by
    simp; omega
  have hh : headerLength ([p.code.toU8, p.identifier, hi, lo] ++
      authField H p [p.code.toU8, p.identifier, hi, lo] w ++ w) = hi.toNat * 256 + lo.toNat := by
    simp [headerLength]
  rw [hlen, hh]
  omega

/-- The full claim C06 is false of the code: this packet, made by the public API, is encoded in debug and
in release builds to 65810 bytes with length field 274. -/
theorem C06_counterexample (H : Hash) (ck : Bool) :
    Reachable hugePacket ∧
    ∃ bs, Packet.encode H ck hugePacket = .ok bs ∧ bs.length = 65810 ∧ headerLength bs = 274 := by
  refine ⟨hugePacket_reachable, ?_⟩
  have ha := reachable_auth hugePacket_reachable
  have hs : ∀ a ∈ hugePacket.attributes, a.value.length ≤ 253 := by
    have : hugePacket.attributes = [] ++ zeroAttrs 258 253 := rfl
    rw [this, List.nil_append]
    exact fun a ha => Nat.le_of_eq (zeroAttrs_length _ _ a ha)
  obtain ⟨w, hi, lo, hw, hl, he⟩ := encode_spec H ck hugePacket ha hs
  have hwl := hw.length
  rw [hugePacket_wireSize] at hwl
  rw [if_neg (by omega), if_neg (by omega), if_neg (by decide)] at he
  obtain ⟨h1, _, h3⟩ := C06_length_field_mod H ck hugePacket _ hugePacket_reachable he
  refine ⟨_, he, ?_, ?_⟩
  · rw [h3, hugePacket_wireSize]
  · rw [h1, h3, hugePacket_wireSize]

/-- **C07** The outcome of `encode`, for both overflow-check modes: `attribute is too large` exactly if some
value exceeds 253 bytes; otherwise (arithmetic panic aside, see C08) `packet is too large` exactly if the
16-bit size exceeds 4096; otherwise `UnknownCodeError` exactly for the three codes that are never sent;
otherwise success. -/
theorem C07_encode_outcome (H : Hash) (ck : Bool) (p : Packet) (hr : Reachable p) :
    ((∃ a ∈ p.attributes, 253 < a.value.length) →
      Packet.encode H ck p = .err (.EncodingError "attribute is too large")) ∧
    ((∀ a ∈ p.attributes, a.value.length ≤ 253) →
      (ck = true → 20 + wireSize p.attributes % 65536 < 65536) →
      ((20 + wireSize p.attributes) % 65536 > 4096 →
        Packet.encode H ck p = .err (.EncodingError "packet is too large")) ∧
      ((20 + wireSize p.attributes) % 65536 ≤ 4096 → authRule p.code.toU8 = none →
        Packet.encode H ck p = .err (.UnknownCodeError p.code.debug)) ∧
      ((20 + wireSize p.attributes) % 65536 ≤ 4096 → authRule p.code.toU8 ≠ none →
        ∃ bs, Packet.encode H ck p = .ok bs)) := by
  have ha := reachable_auth hr
  refine ⟨encode_err_large H ck p, ?_⟩
  intro hs hck
  obtain ⟨w, hi, lo, hw, hl, he⟩ := encode_spec H ck p ha hs
  have hwl := hw.length
  have hu : authRule p.code.toU8 = none ↔ unencodable p.code := by
    cases p.code <;> decide
  rw [hwl] at he
  rw [if_neg (by rintro ⟨h1, h2⟩; have := hck h1; omega)] at he
  rw [he]
  refine ⟨?_, ?_, ?_⟩
  · intro h; rw [if_pos h]
  · intro h h'; rw [if_neg (by omega), if_pos (hu.1 h')]
  · intro h h'; rw [if_neg (by omega), if_neg (fun hh => h' (hu.2 hh))]; exact ⟨_, rfl⟩

/-- The codes that `encode` refuses are exactly these. -/
theorem C07_unsendable_codes (c : Code) :
    authRule c.toU8 = none ↔ c = .StatusClient ∨ c = .Reserved ∨ c = .Invalid := by
  cases c <;> decide

/-- Each outcome occurs. -/
example (H : Hash) : Packet.encode H true ((samplePacket .AccessRequest).extend (zeroAttrs 1 254))
    = .err (.EncodingError "attribute is too large") :=
  (C07_encode_outcome H true _ (.extend _ _ (samplePacket_reachable _))).1
    ⟨⟨26, List.replicate 254 0⟩, List.mem_append_right _ (List.mem_singleton.2 rfl), by decide +kernel⟩
example : Packet.encode Md5.md5 true ((samplePacket .AccessRequest).extend
    (List.replicate 16 ⟨1, List.replicate 253 0⟩)) = .err (.EncodingError "packet is too large") := by
  decide +kernel
example : Packet.encode Md5.md5 true (samplePacket .StatusClient) = .err (.UnknownCodeError "StatusClient") := by
  decide +kernel

/-- **C08** Authenticators are 16 bytes, and `encode` does not panic. -/
theorem C08_authenticator_and_no_panic (H : Hash) (p : Packet) (hr : Reachable p) :
    p.authenticator.length = 16 ∧
    Packet.encode H false p ≠ .panic ∧
    (wireSize p.attributes < 65516 → Packet.encode H true p ≠ .panic) := by
  have ha := reachable_auth hr
  have key : ∀ ck, (ck = true → wireSize p.attributes < 65516) → Packet.encode H ck p ≠ .panic := by
    intro ck hck
    by_cases hs : ∀ a ∈ p.attributes, a.value.length ≤ 253
    · obtain ⟨w, hi, lo, hw, hl, he⟩ := encode_spec H ck p ha hs
      have hwl := hw.length
      rw [he, if_neg (by rintro ⟨h1, h2⟩; have := hck h1; omega)]
      split
      · exact fun h => nomatch h
      split <;> exact fun h => nomatch h
    · rw [encode_err_large H ck p (by simpa using hs)]
      exact fun h => nomatch h
  exact ⟨ha, key false (by simp), fun h => key true (fun _ => h)⟩

/-- The bound of C08 is sharp: with overflow checks, 257 attributes totalling 65516 bytes make `encode` panic. -/
theorem C08_panic_witness (H : Hash) :
    ∃ p, Reachable p ∧ wireSize p.attributes = 65516 ∧ Packet.encode H true p = .panic := by
  generalize hp : (Packet.newWithIdentifier (fun _ => 0) .AccessRequest [1] 9).extend
    (zeroAttrs 256 253 ++ zeroAttrs 1 234) = p
  have hr : Reachable p := hp ▸ .extend _ _ (.newWithIdentifier _ _ _ _)
  have hattr : p.attributes = [] ++ (zeroAttrs 256 253 ++ zeroAttrs 1 234) := by rw [← hp]; rfl
  have hw : wireSize p.attributes = 65516 := by
    rw [hattr, List.nil_append, wireSize_append, zeroAttrs_wireSize, zeroAttrs_wireSize]
  refine ⟨p, hr, hw, ?_⟩
  obtain ⟨w, hi, lo, hwire, hl, he⟩ := encode_spec H true p (reachable_auth hr) (by
    rw [hattr, List.nil_append]
    intro a ha
    rcases List.mem_append.1 ha with ha | ha <;> have := zeroAttrs_length _ _ a ha <;> omega)
  have hwl := hwire.length
  rw [he, if_pos ⟨rfl, by omega⟩]

/-- **C09** The encoded bytes: header, authenticator field by the RFC formula of the code, attributes. -/
theorem C09_wire_authenticator (H : Hash) (ck : Bool) (p : Packet) (bs : Bytes)
    (hr : Reachable p) (he : Packet.encode H ck p = .ok bs) :
    ∃ (hi lo : UInt8) (field body : Bytes),
      bs = [p.code.toU8, p.identifier, hi, lo] ++ field ++ body ∧ field.length = 16 ∧
      AttrsWire p.attributes body ∧
      hi.toNat * 256 + lo.toNat = (20 + body.length) % 65536 ∧
      (match authRule p.code.toU8 with
       | some .own => field = p.authenticator
       | some .zeroed => field = (H ([p.code.toU8, p.identifier, hi, lo] ++ List.replicate 16 0
            ++ body ++ p.secret)).val
       | some .chained => field = (H ([p.code.toU8, p.identifier, hi, lo] ++ p.authenticator
            ++ body ++ p.secret)).val
       | none => False) := by
  have ha := reachable_auth hr
  obtain ⟨w, hi, lo, hw, hl, hm, hc, rfl⟩ := encode_ok_elim H ck p bs ha he
  refine ⟨hi, lo, _, w, rfl, authField_length H p _ w ha, hw, hl, ?_⟩
  unfold authField Packet.hashedAuthenticator
  revert hc
  generalize hpc : p.code = c
  cases c <;> intro hc <;> first | rfl | exact hc (by decide)

example : ∃ bs, Packet.encode Md5.md5 false (samplePacket .AccountingRequest) = .ok bs := ⟨_, rfl⟩

end Radius

import Verif.Lemmas.Attributes
import Verif.Spec.Api
/-! # Lemmas about `Packet` -/
namespace Radius
open Spec

theorem code_from_toU8 (c : Code) : Code.from c.toU8 = c := by cases c <;> rfl

/-- `Packet::decode` on a datagram with a full header, slices resolved. -/
theorem decode_cons (c i hi lo : UInt8) (rest secret : Bytes) (h : 16 ≤ rest.length) :
    Packet.decode (c :: i :: hi :: lo :: rest) secret =
      (let len := hi.toNat * 256 + lo.toNat
       if len < 20 then .err (.InsufficientHeaderDefinedPacketLengthError len 20)
       else if len > 4096 then .err (.HeaderDefinedPacketLengthExceedsMaximumLimitError len 4096)
       else if rest.length + 4 < len then .err (.InsufficientPacketPayloadLengthError len (rest.length + 4))
       else match Attributes.decode ((rest.drop 16).take (len - 20)) with
        | .ok attrs => .ok ⟨Code.from c, i, rest.take 16, secret, attrs⟩
        | .err e => .err (.DecodingError e)
        | .panic => .panic) := by
  unfold Packet.decode
  have hl : (c :: i :: hi :: lo :: rest).length = rest.length + 4 := by simp
  rw [if_neg (by rw [hl, RADIUS_PACKET_HEADER_LENGTH]; omega)]
  rw [slice_of_le _ 2 4 (by omega) (by rw [hl]; omega)]
  simp only [Out.bind_ok, List.drop_succ_cons, List.drop_zero, List.take_succ_cons, List.take_zero,
    Nat.reduceSub, u16_join, hl, RADIUS_PACKET_HEADER_LENGTH, MAX_PACKET_LENGTH]
  split
  · rfl
  split
  · rfl
  split
  · rfl
  rename_i h1 h2 h3
  rw [slice_of_le _ 20 _ (by omega) (by rw [hl]; omega), slice_of_le _ 4 20 (by omega) (by rw [hl]; omega),
    idx_of_lt _ 0 (by rw [hl]; omega), idx_of_lt _ 1 (by rw [hl]; omega)]
  simp only [Out.bind_ok]
  rw [show (c :: i :: hi :: lo :: rest).drop 20 = rest.drop 16 from rfl,
    show (c :: i :: hi :: lo :: rest).drop 4 = rest from rfl]
  cases Attributes.decode ((rest.drop 16).take (hi.toNat * 256 + lo.toNat - 20)) <;> rfl

/-- `Packet::decode` on a datagram without a full header. -/
theorem decode_short (bs secret : Bytes) (h : bs.length < 20) :
    Packet.decode bs secret = .err (.InsufficientPacketPayloadLengthError 20 bs.length) := by
  unfold Packet.decode
  rw [if_pos (by simpa [RADIUS_PACKET_HEADER_LENGTH] using h)]; rfl

theorem exists_header (bs : Bytes) (h : 20 ≤ bs.length) :
    ∃ (c i hi lo : UInt8) (rest : Bytes), bs = c :: i :: hi :: lo :: rest ∧ 16 ≤ rest.length := by
  match bs, h with
  | c :: i :: hi :: lo :: rest, h => exact ⟨c, i, hi, lo, rest, rfl, by simp at h; omega⟩
  | [], h => simp at h
  | [_], h => simp at h
  | [_, _], h => simp at h
  | [_, _, _], h => simp at h

/-- Decoding a datagram assembled from its parts. -/
theorem decode_parts (c i hi lo : UInt8) (auth body padding secret : Bytes) (attrs : List AVP)
    (ha : auth.length = 16) (hw : AttrsWire attrs body)
    (hl : hi.toNat * 256 + lo.toNat = 20 + body.length) (hm : 20 + body.length ≤ 4096) :
    Packet.decode ([c, i, hi, lo] ++ auth ++ body ++ padding) secret
      = .ok ⟨Code.from c, i, auth, secret, attrs⟩ := by
  have hd := decode_cons c i hi lo (auth ++ body ++ padding) secret (by simp; omega)
  simp only [List.cons_append, List.nil_append] at hd ⊢
  rw [hd]
  simp only [hl, List.length_append, ha]
  rw [if_neg (by omega), if_neg (by omega), if_neg (by omega)]
  have h1 : (((auth ++ body ++ padding).drop 16).take (20 + body.length - 20)) = body := by
    rw [List.append_assoc, List.drop_left' ha]
    rw [List.take_left' (by omega)]
  have h2 : (auth ++ body ++ padding).take 16 = auth := by
    rw [List.append_assoc, List.take_left' ha]
  rw [h1, h2, (attributes_decode_ok_iff body attrs).2 hw]

/-- Everything about a successful decode. -/
theorem decode_ok_elim (bs secret : Bytes) (p : Packet) (h : Packet.decode bs secret = .ok p) :
    ∃ (c hi lo : UInt8) (body padding : Bytes),
      bs = [c, p.identifier, hi, lo] ++ p.authenticator ++ body ++ padding ∧
      p.authenticator.length = 16 ∧ AttrsWire p.attributes body ∧
      hi.toNat * 256 + lo.toNat = 20 + body.length ∧ 20 + body.length ≤ 4096 ∧
      p.code = Code.from c ∧ p.secret = secret := by
  by_cases hlen : bs.length < 20
  · rw [decode_short bs secret hlen] at h; cases h
  obtain ⟨c, i, hi, lo, rest, rfl, hr⟩ := exists_header bs (by omega)
  rw [decode_cons c i hi lo rest secret hr] at h
  simp only at h
  split at h
  · cases h
  split at h
  · cases h
  split at h
  · cases h
  rename_i h1 h2 h3
  split at h
  · rename_i attrs hattrs
    cases h
    rw [attributes_decode_ok_iff] at hattrs
    refine ⟨c, hi, lo, _, rest.drop (hi.toNat * 256 + lo.toNat - 4), ?_, ?_, hattrs, ?_, ?_, rfl, rfl⟩
    · simp only [List.cons_append, List.nil_append, List.cons.injEq, true_and]
      conv => lhs; rw [← List.take_append_drop 16 rest]
      rw [List.append_assoc]
      congr 1
      conv => lhs; rw [← List.take_append_drop (hi.toNat * 256 + lo.toNat - 20) (rest.drop 16)]
      rw [List.drop_drop]
      congr 2; omega
    · simp; omega
    · simp; omega
    · simp; omega
  · cases h
  · cases h

theorem reachable_auth {p : Packet} (h : Reachable p) : p.authenticator.length = 16 := by
  induction h with
  | new => simp [Packet.new, Packet.newInner]
  | newWithIdentifier => simp [Packet.newWithIdentifier, Packet.newInner]
  | decode bs secret p hd =>
    obtain ⟨_, _, _, _, _, _, h, _⟩ := decode_ok_elim bs secret p hd
    exact h
  | makeResponsePacket p code _ ih => exact ih
  | setIdentifier p i _ ih => exact ih
  | add p a _ ih => exact ih
  | extend p a _ ih => exact ih
  | delete p t _ ih => exact ih

/-- Total description of `Packet::marshal_binary`. -/
theorem marshal_ok (ck : Bool) (p : Packet) (hs : ∀ a ∈ p.attributes, a.value.length ≤ 253) :
    ∃ (w : Bytes) (hi lo : UInt8), AttrsWire p.attributes w ∧
      hi.toNat * 256 + lo.toNat = (20 + w.length) % 65536 ∧
      Packet.marshalBinary ck p =
        (if ck = true ∧ 65536 ≤ 20 + w.length % 65536 then .panic
         else if 4096 < (20 + w.length) % 65536 then .err "packet is too large"
         else .ok ([p.code.toU8, p.identifier, hi, lo] ++ p.authenticator ++ w)) := by
  obtain ⟨w, hw, hwire⟩ := attributes_encode_ok ck p.attributes hs
  have hsum : ((20 : UInt16) + UInt16.ofNat w.length).toNat = (20 + w.length) % 65536 := by
    rw [UInt16.toNat_add, UInt16.toNat_ofNat']; show (20 + _) % 65536 = _; omega
  obtain ⟨hi, lo, hbe, hbe'⟩ := u16ToBe_eq ((20 : UInt16) + UInt16.ofNat w.length)
  refine ⟨w, hi, lo, hwire, by rw [hbe', hsum], ?_⟩
  have hadd : (addU16 ck (UInt16.ofNat RADIUS_PACKET_HEADER_LENGTH) (UInt16.ofNat w.length) : Out String UInt16)
      = if ck = true ∧ 65536 ≤ 20 + w.length % 65536 then .panic
        else .ok ((20 : UInt16) + UInt16.ofNat w.length) := by
    have h1 : (UInt16.ofNat RADIUS_PACKET_HEADER_LENGTH) = 20 := rfl
    have h2 : (UInt16.ofNat w.length).toNat = w.length % 65536 := by rw [UInt16.toNat_ofNat']
    simp only [addU16, h1, h2]
    rw [show (20 : UInt16).toNat = 20 from rfl]
    by_cases hc : 20 + w.length % 65536 < 65536
    · rw [if_pos hc, if_neg (by omega)]
    · rw [if_neg hc]
      cases ck
      · simp
      · rw [if_pos rfl, if_pos ⟨rfl, by omega⟩]
  unfold Packet.marshalBinary
  simp only [hw, Out.bind_ok, hadd]
  by_cases hc : ck = true ∧ 65536 ≤ 20 + w.length % 65536
  · simp [hc]
  · rw [if_neg hc, if_neg hc]
    simp only [Out.bind_ok, hsum, MAX_PACKET_LENGTH, hbe]
    split
    · rfl
    · simp

theorem marshal_err (ck : Bool) (p : Packet) (hs : ∃ a ∈ p.attributes, 253 < a.value.length) :
    Packet.marshalBinary ck p = .err "attribute is too large" := by
  unfold Packet.marshalBinary
  rw [attributes_encode_err ck _ hs]; rfl

/-- The bytes `Packet::encode` places in the authenticator field, from the marshalled pieces. -/
def authField (H : Hash) (p : Packet) (hdr w : Bytes) : Bytes :=
  match p.code with
  | .AccessRequest | .StatusServer => p.authenticator
  | _ => (H (hdr ++ p.hashedAuthenticator ++ w ++ p.secret)).val

/-- Codes `Packet::encode` rejects. -/
def unencodable (c : Code) : Prop := c = .StatusClient ∨ c = .Reserved ∨ c = .Invalid

instance (c : Code) : Decidable (unencodable c) := by unfold unencodable; infer_instance

theorem authField_length (H : Hash) (p : Packet) (hdr w : Bytes) (ha : p.authenticator.length = 16) :
    (authField H p hdr w).length = 16 := by
  unfold authField
  split
  · exact ha
  · exact ha
  · exact (H _).property

/-- Total description of `Packet::encode`. -/
theorem encode_spec (H : Hash) (ck : Bool) (p : Packet) (ha : p.authenticator.length = 16)
    (hs : ∀ a ∈ p.attributes, a.value.length ≤ 253) :
    ∃ (w : Bytes) (hi lo : UInt8), AttrsWire p.attributes w ∧
      hi.toNat * 256 + lo.toNat = (20 + w.length) % 65536 ∧
      Packet.encode H ck p =
        (if ck = true ∧ 65536 ≤ 20 + w.length % 65536 then .panic
         else if 4096 < (20 + w.length) % 65536 then .err (.EncodingError "packet is too large")
         else if unencodable p.code then .err (.UnknownCodeError p.code.debug)
         else .ok ([p.code.toU8, p.identifier, hi, lo]
              ++ authField H p [p.code.toU8, p.identifier, hi, lo] w ++ w)) := by
  obtain ⟨w, hi, lo, hw, hlen, hm⟩ := marshal_ok ck p hs
  refine ⟨w, hi, lo, hw, hlen, ?_⟩
  unfold Packet.encode
  rw [hm]
  split
  · rfl
  split
  · rfl
  generalize hb : [p.code.toU8, p.identifier, hi, lo] ++ p.authenticator ++ w = bs
  have hbl : bs.length = 20 + w.length := by rw [← hb]; simp; omega
  have h1 : (slice bs 0 4 : Out PacketError Bytes) = .ok [p.code.toU8, p.identifier, hi, lo] := by
    rw [slice_of_le _ _ _ (by omega) (by omega), ← hb]; simp
  have h2 : (sliceFrom bs RADIUS_PACKET_HEADER_LENGTH : Out PacketError Bytes) = .ok w := by
    rw [sliceFrom_of_le _ _ (by rw [RADIUS_PACKET_HEADER_LENGTH]; omega), ← hb]
    rw [List.drop_left' (by simp [ha, RADIUS_PACKET_HEADER_LENGTH])]
  have h3 : ∀ d : Bytes, (splice bs 4 20 d : Out PacketError Bytes)
      = .ok ([p.code.toU8, p.identifier, hi, lo] ++ d ++ w) := by
    intro d
    unfold splice
    rw [if_pos (by omega)]
    have e1 : bs.take 4 = [p.code.toU8, p.identifier, hi, lo] := by rw [← hb]; simp
    have e2 : bs.drop 20 = w := by rw [← hb]; rw [List.drop_left' (by simp [ha])]
    rw [e1, e2]
  simp only [Out.mapErr_ok, Out.bind_ok, h1, h2, h3]
  unfold authField
  have hc : p.code = p.code := rfl
  generalize hpc : p.code = c
  cases c <;> simp [hpc, unencodable, ← hb]

/-- Everything about a successful encode. -/
theorem encode_ok_elim (H : Hash) (ck : Bool) (p : Packet) (bs : Bytes)
    (ha : p.authenticator.length = 16) (h : Packet.encode H ck p = .ok bs) :
    ∃ (w : Bytes) (hi lo : UInt8), AttrsWire p.attributes w ∧
      hi.toNat * 256 + lo.toNat = (20 + w.length) % 65536 ∧ (20 + w.length) % 65536 ≤ 4096 ∧
      ¬ unencodable p.code ∧
      bs = [p.code.toU8, p.identifier, hi, lo]
              ++ authField H p [p.code.toU8, p.identifier, hi, lo] w ++ w := by
  by_cases hs : ∀ a ∈ p.attributes, a.value.length ≤ 253
  · obtain ⟨w, hi, lo, hw, hlen, he⟩ := encode_spec H ck p ha hs
    rw [he] at h
    split at h
    · cases h
    split at h
    · cases h
    split at h
    · cases h
    rename_i h1 h2 h3
    cases h
    exact ⟨w, hi, lo, hw, hlen, by omega, h3, rfl⟩
  · have : ∃ a ∈ p.attributes, 253 < a.value.length := by
      simpa using hs
    unfold Packet.encode at h
    rw [marshal_err ck p this] at h
    cases h

theorem encode_err_large (H : Hash) (ck : Bool) (p : Packet)
    (hs : ∃ a ∈ p.attributes, 253 < a.value.length) :
    Packet.encode H ck p = .err (.EncodingError "attribute is too large") := by
  unfold Packet.encode
  rw [marshal_err ck p hs]; rfl

end Radius

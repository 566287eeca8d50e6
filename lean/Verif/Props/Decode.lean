import Verif.Lemmas.Packet
import Verif.Spec.Packet
/-! # C01, C02, C03, C47, C48: decoding, codes, tags -/
namespace Radius
open Spec

/-- **C01** `Packet::decode` never panics. (The function contains no narrow arithmetic, so its model takes
no overflow-check flag.) -/
theorem C01_decode_never_panics (bs secret : Bytes) : Packet.decode bs secret ≠ .panic := by
  by_cases hlen : bs.length < 20
  · rw [decode_short bs secret hlen]; exact fun h => nomatch h
  obtain ⟨c, i, hi, lo, rest, rfl, hr⟩ := exists_header bs (by omega)
  rw [decode_cons c i hi lo rest secret hr]
  simp only
  split
  · exact fun h => nomatch h
  split
  · exact fun h => nomatch h
  split
  · exact fun h => nomatch h
  split
  · exact fun h => nomatch h
  · exact fun h => nomatch h
  · rename_i h; exact absurd h (attributes_decode_ne_panic _)

theorem code_string_inj (c c' : Code) (h : c.string = c'.string) : c = c' := by
  cases c <;> cases c' <;> first | rfl | exact absurd h (by decide)

theorem code_from_string (b : UInt8) : (Code.from b).string = codeOf b := by
  have key : ∀ n : Fin 256, (Code.from (UInt8.ofNat n.val)).string = codeOf (UInt8.ofNat n.val) := by
    decide +kernel
  simpa using key ⟨b.toNat, b.toNat_lt⟩

/-- **C02** `Packet::decode` accepts exactly the wire language, and returns exactly the fields. -/
theorem C02_decode_iff_wire (bs secret : Bytes) (p : Packet) :
    Packet.decode bs secret = .ok p ↔
      p.secret = secret ∧
      ∃ c : UInt8, p.code.string = codeOf c ∧ Datagram bs c p.identifier p.authenticator p.attributes := by
  constructor
  · intro h
    obtain ⟨c, hi, lo, body, padding, hb, ha, hw, hl, hm, hc, hsec⟩ := decode_ok_elim bs secret p h
    exact ⟨hsec, c, by rw [hc, code_from_string], hi, lo, body, padding, hb, ha, hw, hl, hm⟩
  · rintro ⟨hsec, c, hc, hi, lo, body, padding, hb, ha, hw, hl, hm⟩
    rw [hb, decode_parts c p.identifier hi lo p.authenticator body padding secret p.attributes ha hw hl hm]
    have : Code.from c = p.code := code_string_inj _ _ (by rw [code_from_string, hc])
    rw [this, ← hsec]

/-- **C02**, acceptance only: some packet is returned iff the bytes are in the wire language. -/
theorem C02_decode_accepts_iff (bs secret : Bytes) :
    (∃ p, Packet.decode bs secret = .ok p) ↔ ∃ c i auth attrs, Datagram bs c i auth attrs := by
  constructor
  · rintro ⟨p, h⟩
    obtain ⟨_, c, _, hd⟩ := (C02_decode_iff_wire bs secret p).1 h
    exact ⟨c, _, _, _, hd⟩
  · rintro ⟨c, i, auth, attrs, hd⟩
    refine ⟨⟨Code.from c, i, auth, secret, attrs⟩, (C02_decode_iff_wire bs secret _).2 ⟨rfl, c, ?_, hd⟩⟩
    exact code_from_string c

/-- A sample datagram: Access-Request with User-Name "ab" and one byte of padding. -/
def sampleDatagram : Bytes :=
  [1, 7, 0, 24] ++ (List.range 16).map UInt8.ofNat ++ [1, 4, 0x61, 0x62] ++ [0xff]

/-- The sample is in the language (so C02 is not vacuous), and is decoded to the expected packet. -/
example : Datagram sampleDatagram 1 7 ((List.range 16).map UInt8.ofNat) [⟨1, [0x61, 0x62]⟩] :=
  ⟨0, 24, [1, 4, 0x61, 0x62], [0xff], rfl, rfl,
    .cons 1 4 [0x61, 0x62] [] [] (by decide) (by decide) .nil, by decide, by decide⟩
example : Packet.decode sampleDatagram [1] =
    .ok ⟨.AccessRequest, 7, (List.range 16).map UInt8.ofNat, [1], [⟨1, [0x61, 0x62]⟩]⟩ := by
  decide +kernel

theorem headerLength_cons (c i hi lo : UInt8) (rest : Bytes) :
    headerLength (c :: i :: hi :: lo :: rest) = hi.toNat * 256 + lo.toNat := rfl

theorem attrs_slice (c i hi lo : UInt8) (rest : Bytes) (n : Nat) :
    ((c :: i :: hi :: lo :: rest).take n).drop 20 = (rest.drop 16).take (n - 20) := by
  rw [List.drop_take, show (c :: i :: hi :: lo :: rest).drop 20 = rest.drop 16 from rfl]

/-- **C03** An error is returned exactly when it describes the first violated constraint. -/
theorem C03_decode_error_iff (bs secret : Bytes) (e : PacketError) :
    Packet.decode bs secret = .err e ↔ DecodeError bs e := by
  by_cases hlen : bs.length < 20
  · rw [decode_short bs secret hlen]
    constructor
    · intro h; cases h; exact .shortBuffer hlen
    · intro h; cases h <;> first | rfl | omega
  obtain ⟨c, i, hi, lo, rest, rfl, hr⟩ := exists_header bs (by omega)
  rw [decode_cons c i hi lo rest secret hr]
  have hL := headerLength_cons c i hi lo rest
  have hl : (c :: i :: hi :: lo :: rest).length = rest.length + 4 := by simp
  simp only [← hL]
  constructor
  · intro h
    split at h
    · cases h; exact .shortHeader (by omega) (by omega)
    split at h
    · cases h; exact .tooLong (by omega) (by omega)
    split at h
    · cases h; exact hl ▸ .truncated (by omega) (by omega) (by omega) (by omega)
    split at h
    · cases h
    · rename_i m hm
      cases h
      refine .attributes _ (by omega) (by omega) (by omega) (by omega) ?_
      rw [attrs_slice]
      exact (attributes_decode_err_iff _ _).1 hm
    · cases h
  · intro h
    cases h with
    | shortBuffer h => omega
    | shortHeader _ h => rw [if_pos h]
    | tooLong _ h => rw [if_neg (by omega), if_pos h]
    | truncated _ h1 h2 h3 => rw [if_neg (by omega), if_neg (by omega), if_pos (by omega), hl]
    | attributes m _ h1 h2 h3 hb =>
      rw [if_neg (by omega), if_neg (by omega), if_neg (by omega)]
      rw [attrs_slice] at hb
      rw [(attributes_decode_err_iff _ _).2 hb]

/-- Each kind of error occurs. -/
example : Packet.decode [1, 2, 3] [] = .err (.InsufficientPacketPayloadLengthError 20 3) := by decide
example : Packet.decode (sampleDatagram.set 3 19) [] =
    .err (.InsufficientHeaderDefinedPacketLengthError 19 20) := by decide +kernel
example : Packet.decode ((sampleDatagram.set 2 16).set 3 1) [] =
    .err (.HeaderDefinedPacketLengthExceedsMaximumLimitError 4097 4096) := by decide +kernel
example : Packet.decode (sampleDatagram.set 3 26) [] =
    .err (.InsufficientPacketPayloadLengthError 26 25) := by decide +kernel
example : Packet.decode (sampleDatagram.set 3 25) [] = .err (.DecodingError "short buffer") := by
  decide +kernel
example : Packet.decode (sampleDatagram.set 21 5) [] = .err (.DecodingError "invalid attribute length") := by
  decide +kernel

/-- **C47** Codes and code bytes: `Code::from` inverts `as u8`, all other bytes are `Invalid`, the names are
the registered ones and pairwise distinct. -/
theorem C47_codes :
    (∀ c : Code, Code.from c.toU8 = c) ∧
    (∀ b : UInt8, (∀ c : Code, c.toU8 ≠ b) → Code.from b = .Invalid) ∧
    (∀ b : UInt8, (Code.from b).string = codeOf b) ∧
    (∀ c c' : Code, c.string = c'.string → c = c') ∧
    (∀ c c' : Code, c.toU8 = c'.toU8 → c = c') := by
  refine ⟨code_from_toU8, ?_, code_from_string, code_string_inj, ?_⟩
  · intro b hb
    by_cases hi : Code.from b = .Invalid
    · exact hi
    · exfalso
      have key : ∀ n : Fin 256, Code.from (UInt8.ofNat n.val) ≠ .Invalid →
          (Code.from (UInt8.ofNat n.val)).toU8 = UInt8.ofNat n.val := by decide +kernel
      have := key ⟨b.toNat, b.toNat_lt⟩
      simp only [UInt8.ofNat_toNat] at this
      exact hb _ (this hi)
  · intro c c' h
    rw [← code_from_toU8 c, ← code_from_toU8 c', h]

/-- A byte that is no code exists. -/
example : ∀ c : Code, c.toU8 ≠ 77 := by intro c; cases c <;> decide

/-- **C48** Every byte is exactly one of unused, valid, other; the classes are 0, 1..=31 and 32..=255. -/
theorem C48_tag_classes (b : UInt8) :
    ((Tag.new b).isZero = true ↔ b.toNat = 0) ∧
    ((Tag.new b).isValidValue = true ↔ 1 ≤ b.toNat ∧ b.toNat ≤ 31) ∧
    ((Tag.new b).isZero = false ∧ (Tag.new b).isValidValue = false ↔ 32 ≤ b.toNat) ∧
    ¬ ((Tag.new b).isZero = true ∧ (Tag.new b).isValidValue = true) ∧
    (Tag.new b).getValue = b ∧ Tag.newUnused = Tag.new 0 := by
  have hz : (Tag.new b).isZero = true ↔ b.toNat = 0 := by
    simp only [Tag.isZero, Tag.new, UNUSED_TAG_VALUE, beq_iff_eq]
    rw [← UInt8.toNat_inj]; rfl
  have hv : (Tag.new b).isValidValue = true ↔ 1 ≤ b.toNat ∧ b.toNat ≤ 31 := by
    simp only [Tag.isValidValue, Tag.new, Bool.and_eq_true, decide_eq_true_eq, UInt8.le_iff_toNat_le]
    exact Iff.rfl
  refine ⟨hz, hv, ?_, ?_, rfl, rfl⟩
  · rw [← Bool.not_eq_true, ← Bool.not_eq_true, hz, hv]; omega
  · rw [hz, hv]; omega

end Radius

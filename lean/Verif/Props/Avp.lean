import Verif.Lemmas.Values
import Verif.Model.Md5
/-! # C17–C23, C26, C27, C29: attribute values -/
namespace Radius
open Spec

/-- **C17** A `u32` is stored as its four big-endian bytes and read back. -/
theorem C17_u32_write (t : AVPType) (v : UInt32) :
    (AVP.fromU32 t v).typ = t ∧ (AVP.fromU32 t v).value.length = 4 ∧
    beNat (AVP.fromU32 t v).value = v.toNat ∧ (AVP.fromU32 t v).encodeU32 = .ok v := by
  obtain ⟨a, b, c, d, h, h'⟩ := u32FromBe_toBe v
  refine ⟨rfl, by rw [AVP.fromU32, h]; rfl, ?_, ?_⟩
  · rw [AVP.fromU32, h, ← h', u32_join]
    simp [beNat]; omega
  · simp [AVP.encodeU32, AVP.fromU32, h, h']

/-- **C17** Reading a `u32` succeeds exactly on four bytes and loses nothing. -/
theorem C17_u32_read (a : AVP) :
    (a.value.length = 4 → ∃ v, a.encodeU32 = .ok v ∧ v.toNat = beNat a.value ∧ AVP.fromU32 a.typ v = a) ∧
    (a.value.length ≠ 4 →
      a.encodeU32 = .err (.InvalidAttributeLengthError "4 bytes" a.value.length)) := by
  obtain ⟨t, v⟩ := a
  constructor
  · intro h
    match v, h with
    | [a, b, c, d], _ =>
      refine ⟨u32FromBe a b c d, rfl, ?_, ?_⟩
      · rw [u32_join]; simp [beNat]; omega
      · simp [AVP.fromU32, u32ToBe_fromBe]
  · intro h
    simp only [ne_eq] at h
    simp [AVP.encodeU32, h]

/-- **C17** A `u16` is stored as its two big-endian bytes and read back. -/
theorem C17_u16_write (t : AVPType) (v : UInt16) :
    (AVP.fromU16 t v).typ = t ∧ (AVP.fromU16 t v).value.length = 2 ∧
    beNat (AVP.fromU16 t v).value = v.toNat ∧ (AVP.fromU16 t v).encodeU16 = .ok v := by
  obtain ⟨a, b, h, h'⟩ := u16FromBe_toBe v
  refine ⟨rfl, by rw [AVP.fromU16, h]; rfl, ?_, ?_⟩
  · rw [AVP.fromU16, h, ← h', u16_join]
    simp [beNat]
  · simp [AVP.encodeU16, AVP.fromU16, h, h']

/-- **C17** Reading a `u16` succeeds exactly on two bytes and loses nothing. -/
theorem C17_u16_read (a : AVP) :
    (a.value.length = 2 → ∃ v, a.encodeU16 = .ok v ∧ v.toNat = beNat a.value ∧ AVP.fromU16 a.typ v = a) ∧
    (a.value.length ≠ 2 →
      a.encodeU16 = .err (.InvalidAttributeLengthError "2 bytes" a.value.length)) := by
  obtain ⟨t, v⟩ := a
  constructor
  · intro h
    match v, h with
    | [a, b], _ =>
      refine ⟨u16FromBe a b, rfl, ?_, ?_⟩
      · rw [u16_join]; simp [beNat]
      · simp [AVP.fromU16, u16ToBe_fromBe]
  · intro h
    simp only [ne_eq] at h
    simp [AVP.encodeU16, h]

example : (AVP.fromU32 5 0x01020304).value = [1, 2, 3, 4] := by decide
example : ({ typ := 5, value := [1, 2, 3] } : AVP).encodeU32
    = .err (.InvalidAttributeLengthError "4 bytes" 3) := by decide

/-- **C18** IPv4 addresses. -/
theorem C18_ipv4 (t : AVPType) (x : Ipv4Addr) (a : AVP) :
    (AVP.fromIpv4 t x).typ = t ∧ (AVP.fromIpv4 t x).value = [x.a, x.b, x.c, x.d] ∧
    (AVP.fromIpv4 t x).encodeIpv4 = .ok x ∧
    (a.value.length = 4 → ∃ y, a.encodeIpv4 = .ok y ∧ AVP.fromIpv4 a.typ y = a) ∧
    (a.value.length ≠ 4 →
      a.encodeIpv4 = .err (.InvalidAttributeLengthError "4 bytes" a.value.length)) := by
  refine ⟨rfl, rfl, rfl, ?_, ?_⟩
  · obtain ⟨t, v⟩ := a
    intro h
    match v, h with
    | [a, b, c, d], _ => exact ⟨⟨a, b, c, d⟩, rfl, rfl⟩
  · intro h
    simp [AVP.encodeIpv4, h]

/-- **C18** IPv6 addresses. -/
theorem C18_ipv6 (t : AVPType) (x : Ipv6Addr) (a : AVP) :
    (AVP.fromIpv6 t x).typ = t ∧ (AVP.fromIpv6 t x).value = x.octets ∧
    (AVP.fromIpv6 t x).encodeIpv6 = .ok x ∧
    (a.value.length = 16 → ∃ y, a.encodeIpv6 = .ok y ∧ AVP.fromIpv6 a.typ y = a) ∧
    (a.value.length ≠ 16 →
      a.encodeIpv6 = .err (.InvalidAttributeLengthError "16 bytes" a.value.length)) := by
  have key : ∀ a : AVP, ∀ h : a.value.length = 16, a.encodeIpv6 = .ok ⟨a.value, h⟩ := by
    intro a h
    unfold AVP.encodeIpv6
    rw [if_neg (by simpa using h)]
    have e : a.value.take 16 = a.value := List.take_of_length_le (by omega)
    rw [dif_pos (by rw [e]; exact h)]
    simp only [e]
  refine ⟨rfl, rfl, key _ x.len, ?_, ?_⟩
  · intro h
    exact ⟨_, key a h, rfl⟩
  · intro h
    simp [AVP.encodeIpv6, h]

/-- **C19** IPv4 prefixes. The length byte is 4, the number of bytes (RFC 8044 asks for the number of bits). -/
theorem C19_ipv4_prefix (t : AVPType) (pfx : Bytes) (a : AVP) :
    (pfx.length = 4 → AVP.fromIpv4Prefix t pfx = .ok ⟨t, 0 :: 4 :: pfx⟩ ∧
      AVP.encodeIpv4Prefix ⟨t, 0 :: 4 :: pfx⟩ = .ok pfx) ∧
    (pfx.length ≠ 4 →
      AVP.fromIpv4Prefix t pfx = .err (.InvalidAttributeLengthError "4 bytes" pfx.length)) ∧
    (a.value.length = 6 → a.encodeIpv4Prefix = .ok (a.value.drop 2)) ∧
    (a.value.length ≠ 6 →
      a.encodeIpv4Prefix = .err (.InvalidAttributeLengthError "6 bytes" a.value.length)) := by
  refine ⟨?_, ?_, ?_, ?_⟩
  · intro h
    refine ⟨by simp [AVP.fromIpv4Prefix, h]; rfl, ?_⟩
    unfold AVP.encodeIpv4Prefix
    rw [if_pos (by simp [h]), sliceFrom_of_le _ _ (by simp)]
    rfl
  · intro h; simp [AVP.fromIpv4Prefix, h]
  · intro h
    unfold AVP.encodeIpv4Prefix
    rw [if_pos (by simp [h]), sliceFrom_of_le _ _ (by omega)]
  · intro h; simp [AVP.encodeIpv4Prefix, h]

/-- **C19** IPv6 prefixes: the length byte is the number of bits. -/
theorem C19_ipv6_prefix (t : AVPType) (pfx : Bytes) (a : AVP) :
    (pfx.length ≤ 16 → ∃ l, AVP.fromIpv6Prefix t pfx = .ok ⟨t, 0 :: l :: pfx⟩ ∧
      l.toNat = 8 * pfx.length ∧ AVP.encodeIpv6Prefix ⟨t, 0 :: l :: pfx⟩ = .ok pfx) ∧
    (16 < pfx.length →
      AVP.fromIpv6Prefix t pfx = .err (.InvalidAttributeLengthError "16 bytes" pfx.length)) ∧
    (2 ≤ a.value.length → a.encodeIpv6Prefix = .ok (a.value.drop 2)) ∧
    (a.value.length < 2 →
      a.encodeIpv6Prefix = .err (.InvalidAttributeLengthError "2+ bytes" a.value.length)) := by
  refine ⟨?_, ?_, ?_, ?_⟩
  · intro h
    refine ⟨UInt8.ofNat (pfx.length * 8), ?_, ?_, ?_⟩
    · simp [AVP.fromIpv6Prefix, h]
    · rw [UInt8.toNat_ofNat']; omega
    · unfold AVP.encodeIpv6Prefix
      rw [if_pos (by simp), sliceFrom_of_le _ _ (by simp)]
      rfl
  · intro h; simp [AVP.fromIpv6Prefix, h]
  · intro h
    unfold AVP.encodeIpv6Prefix
    rw [if_pos (by omega), sliceFrom_of_le _ _ (by omega)]
  · intro h
    unfold AVP.encodeIpv6Prefix
    rw [if_neg (by omega)]

example : AVP.fromIpv6Prefix 97 [0x20, 0x01, 0x0d, 0xb8] = .ok ⟨97, [0, 32, 0x20, 0x01, 0x0d, 0xb8]⟩ := by
  decide

/-- **C20** Text is stored as UTF-8, and reading returns a text exactly for the UTF-8 of that text. -/
theorem C20_text (t : AVPType) (s : String) (a : AVP) :
    (AVP.fromString t s).typ = t ∧ (AVP.fromString t s).value = textBytes s ∧
    (AVP.fromString t s).encodeString = .ok s ∧
    (a.encodeString = .ok s ↔ a.value = textBytes s) := by
  refine ⟨rfl, strBytes_eq s, (stringFromUtf8_ok_iff _ _).2 rfl, ?_⟩
  rw [← strBytes_eq]
  exact stringFromUtf8_ok_iff _ _

/-- **C20** Reading text fails exactly on invalid UTF-8, with `DecodingError`. -/
theorem C20_text_validity (a : AVP) :
    ((∃ s, a.encodeString = .ok s) ↔ ValidUtf8 a.value) ∧
    (¬ ValidUtf8 a.value → ∃ m, a.encodeString = .err (.DecodingError m)) := by
  refine ⟨⟨?_, stringFromUtf8_ok_of_valid _⟩, fun h => ⟨_, stringFromUtf8_err _ h⟩⟩
  rintro ⟨s, hs⟩
  exact ⟨s.toList, by rw [(stringFromUtf8_ok_iff _ _).1 hs, strBytes_eq]; rfl⟩

/-- Both cases occur: a text with one, two, three and four byte characters, and a lone continuation byte. -/
example : textBytes "aé€😀" = [0x61, 0xc3, 0xa9, 0xe2, 0x82, 0xac, 0xf0, 0x9f, 0x98, 0x80] := by
  decide +kernel
example : ¬ ∃ s, ({ typ := 1, value := [0x80] } : AVP).encodeString = .ok s := by
  have : ({ typ := 1, value := [0x80] } : AVP).encodeString
      = .err (.DecodingError "invalid utf-8") := by decide +kernel
  simp [this]

theorem isValidValue_iff (b : UInt8) : ({ value := b } : Tag).isValidValue = true ↔
    1 ≤ b.toNat ∧ b.toNat ≤ 31 := by
  simp [Tag.isValidValue, UInt8.le_iff_toNat_le]

theorem isZero_iff (b : UInt8) : ({ value := b } : Tag).isZero = true ↔ b.toNat = 0 := by
  simp only [Tag.isZero, UNUSED_TAG_VALUE, beq_iff_eq]
  constructor
  · rintro rfl; rfl
  · intro h; exact UInt8.toNat.inj h

theorem stringFromUtf8_strBytes (s : String) : stringFromUtf8 (strBytes s) = .ok s :=
  (stringFromUtf8_ok_iff _ _).2 rfl

/-- The RFC 2868 reading rule for tagged text, on all byte strings. -/
theorem C21_tagged_text_read (t : AVPType) (b : UInt8) (bs : Bytes) :
    (AVP.encodeTaggedString ⟨t, []⟩ = .err .TagMissingError) ∧
    (b.toNat = 0 → AVP.encodeTaggedString ⟨t, b :: bs⟩ = .err .InvalidTagForStringValueError) ∧
    (1 ≤ b.toNat → b.toNat ≤ 31 →
      (∀ s, AVP.encodeTaggedString ⟨t, b :: bs⟩ = .ok (s, some ⟨b⟩) ↔ bs = textBytes s) ∧
      (¬ ValidUtf8 bs → ∃ m, AVP.encodeTaggedString ⟨t, b :: bs⟩ = .err (.DecodingError m))) ∧
    (31 < b.toNat →
      (∀ s, AVP.encodeTaggedString ⟨t, b :: bs⟩ = .ok (s, none) ↔ b :: bs = textBytes s) ∧
      (¬ ValidUtf8 (b :: bs) → ∃ m, AVP.encodeTaggedString ⟨t, b :: bs⟩ = .err (.DecodingError m))) := by
  have hidx : (idx (b :: bs) 0 : Out AVPError UInt8) = .ok b := rfl
  have hsl : (sliceFrom (b :: bs) 1 : Out AVPError Bytes) = .ok bs := by
    rw [sliceFrom_of_le _ _ (by simp)]; rfl
  refine ⟨rfl, ?_, ?_, ?_⟩
  · intro h
    have h1 : ({ value := b } : Tag).isValidValue = false := by
      rw [Bool.eq_false_iff, ne_eq, isValidValue_iff]; omega
    have h2 := (isZero_iff b).2 h
    simp [AVP.encodeTaggedString, hidx, h1, h2]
  · intro h h'
    have h1 := (isValidValue_iff b).2 ⟨h, h'⟩
    have e : AVP.encodeTaggedString ⟨t, b :: bs⟩
        = (stringFromUtf8 bs).bind (fun s => .ok (s, some ⟨b⟩)) := by
      simp only [AVP.encodeTaggedString, List.isEmpty_cons, Bool.false_eq_true, ↓reduceIte, hidx,
        Out.bind_ok, h1, hsl]
      rfl
    rw [e]
    constructor
    · intro s
      rw [← strBytes_eq, ← stringFromUtf8_ok_iff]
      cases stringFromUtf8 bs <;> simp [Out.bind]
    · intro hv
      rw [stringFromUtf8_err _ hv]; exact ⟨_, rfl⟩
  · intro h
    have h1 : ({ value := b } : Tag).isValidValue = false := by
      rw [Bool.eq_false_iff, ne_eq, isValidValue_iff]; omega
    have h2 : ({ value := b } : Tag).isZero = false := by
      rw [Bool.eq_false_iff, ne_eq, isZero_iff]; omega
    have e : AVP.encodeTaggedString ⟨t, b :: bs⟩
        = (stringFromUtf8 (b :: bs)).bind (fun s => .ok (s, none)) := by
      simp only [AVP.encodeTaggedString, List.isEmpty_cons, Bool.false_eq_true, ↓reduceIte, hidx,
        Out.bind_ok, h1, h2]
      rfl
    rw [e]
    constructor
    · intro s
      rw [← strBytes_eq, ← stringFromUtf8_ok_iff]
      cases stringFromUtf8 (b :: bs) <;> simp [Out.bind]
    · intro hv
      rw [stringFromUtf8_err _ hv]; exact ⟨_, rfl⟩

/-- **C21** Tagged text round trips. -/
theorem C21_tagged_text (t : AVPType) (s : String) (b : UInt8) :
    AVP.fromTaggedString t (some ⟨b⟩) s = ⟨t, b :: textBytes s⟩ ∧
    AVP.fromTaggedString t none s = ⟨t, textBytes s⟩ ∧
    (1 ≤ b.toNat → b.toNat ≤ 31 →
      (AVP.fromTaggedString t (some ⟨b⟩) s).encodeTaggedString = .ok (s, some ⟨b⟩)) ∧
    (∀ c rest, textBytes s = c :: rest → 31 < c.toNat →
      (AVP.fromTaggedString t none s).encodeTaggedString = .ok (s, none)) := by
  have e1 : AVP.fromTaggedString t (some ⟨b⟩) s = ⟨t, b :: textBytes s⟩ := by
    simp [AVP.fromTaggedString, strBytes_eq]
  have e2 : AVP.fromTaggedString t none s = ⟨t, textBytes s⟩ := by
    simp [AVP.fromTaggedString, strBytes_eq]
  refine ⟨e1, e2, ?_, ?_⟩
  · intro h h'
    rw [e1]
    exact (((C21_tagged_text_read t b (textBytes s)).2.2.1 h h').1 s).2 rfl
  · intro c rest hs hc
    rw [e2, hs]
    exact (((C21_tagged_text_read t c rest).2.2.2 hc).1 s).2 hs.symm

example : (AVP.fromTaggedString 90 (some ⟨3⟩) "").encodeTaggedString = .ok ("", some ⟨3⟩) := by
  decide +kernel
example : (AVP.fromTaggedString 90 none "lac").encodeTaggedString = .ok ("lac", none) := by
  decide +kernel

/-- **C22** Reading tagged integers, on all byte strings. -/
theorem C22_tagged_u32_read (t : AVPType) (b : UInt8) (bs : Bytes) :
    (AVP.encodeTaggedU32 ⟨t, []⟩ = .err .TagMissingError) ∧
    (31 < b.toNat → AVP.encodeTaggedU32 ⟨t, b :: bs⟩ = .err .InvalidTagForIntegerValueError) ∧
    (b.toNat ≤ 31 → bs.length ≠ 4 → AVP.encodeTaggedU32 ⟨t, b :: bs⟩
      = .err (.InvalidAttributeLengthError "5 bytes" (bs.length + 1))) ∧
    (b.toNat ≤ 31 → bs.length = 4 →
      ∃ v, AVP.encodeTaggedU32 ⟨t, b :: bs⟩ = .ok (v, ⟨b⟩) ∧ v.toNat = beNat bs) := by
  have hidx : (idx (b :: bs) 0 : Out AVPError UInt8) = .ok b := rfl
  have hsl : (sliceFrom (b :: bs) 1 : Out AVPError Bytes) = .ok bs := by
    rw [sliceFrom_of_le _ _ (by simp)]; rfl
  have hok : b.toNat ≤ 31 →
      (!({ value := b } : Tag).isValidValue && !({ value := b } : Tag).isZero) = false := by
    intro h
    by_cases h0 : b.toNat = 0
    · rw [(isZero_iff b).2 h0]; simp
    · rw [(isValidValue_iff b).2 (by omega)]; simp
  refine ⟨rfl, ?_, ?_, ?_⟩
  · intro h
    have h1 : ({ value := b } : Tag).isValidValue = false := by
      rw [Bool.eq_false_iff, ne_eq, isValidValue_iff]; omega
    have h2 : ({ value := b } : Tag).isZero = false := by
      rw [Bool.eq_false_iff, ne_eq, isZero_iff]; omega
    simp [AVP.encodeTaggedU32, hidx, h1, h2]
  · intro h hl
    simp only [AVP.encodeTaggedU32, List.isEmpty_cons, Bool.false_eq_true, ↓reduceIte, hidx,
      Out.bind_ok, hok h, hsl]
    simp [hl]
  · intro h hl
    match bs, hl with
    | [x, y, z, w], _ =>
      refine ⟨u32FromBe x y z w, ?_, ?_⟩
      · simp only [AVP.encodeTaggedU32, List.isEmpty_cons, Bool.false_eq_true, ↓reduceIte, hidx,
          Out.bind_ok, hok h, hsl]
        simp
      · rw [u32_join]; simp [beNat]; omega

/-- **C22** Tagged integers round trip; a tag above 0x1f is rejected on reading. -/
theorem C22_tagged_u32 (t : AVPType) (tag : Option Tag) (v : UInt32) :
    (∃ w, AVP.fromTaggedU32 t tag v = ⟨t, (tag.elim 0 Tag.getValue) :: w⟩ ∧ w.length = 4 ∧
      beNat w = v.toNat) ∧
    ((tag.elim 0 Tag.getValue).toNat ≤ 31 →
      (AVP.fromTaggedU32 t tag v).encodeTaggedU32 = .ok (v, ⟨tag.elim 0 Tag.getValue⟩)) ∧
    (31 < (tag.elim 0 Tag.getValue).toNat →
      (AVP.fromTaggedU32 t tag v).encodeTaggedU32 = .err .InvalidTagForIntegerValueError) := by
  have hw := C17_u32_write t v
  have e : AVP.fromTaggedU32 t tag v = ⟨t, (tag.elim 0 Tag.getValue) :: (AVP.fromU32 t v).value⟩ := by
    cases tag <;> simp [AVP.fromTaggedU32, AVP.fromU32, Tag.getValue, UNUSED_TAG_VALUE]
  refine ⟨⟨_, e, hw.2.1, hw.2.2.1⟩, ?_, ?_⟩
  · intro h
    rw [e]
    obtain ⟨v', h1, h2⟩ := (C22_tagged_u32_read t _ (AVP.fromU32 t v).value).2.2.2 h hw.2.1
    rw [h1]
    have : v' = v := UInt32.toNat.inj (by rw [h2, hw.2.2.1])
    rw [this]
  · intro h
    rw [e]
    exact (C22_tagged_u32_read t _ _).2.1 h

example : (AVP.fromTaggedU32 64 (some ⟨0x1f⟩) 7).encodeTaggedU32 = .ok (7, ⟨0x1f⟩) := by decide
example : (AVP.fromTaggedU32 64 (some ⟨0x20⟩) 7).encodeTaggedU32
    = .err .InvalidTagForIntegerValueError := by decide

theorem timestampOpt_u32 (n : Nat) (h : n < 4294967296) :
    timestampOpt (n : Int) = some { secs := n, nanos := 0 } := by
  unfold timestampOpt
  rw [if_pos (by omega)]

theorem dateOf_eq (n : UInt32) : AVP.dateOf n = .ok { secs := n.toNat, nanos := 0 } := by
  unfold AVP.dateOf
  rw [timestampOpt_u32 n.toNat (by have := n.toNat_lt; omega)]

theorem encodeDate_four (t : AVPType) (v : Bytes) (h : v.length = 4) :
    AVP.encodeDate ⟨t, v⟩ = .ok { secs := (beNat v : Nat), nanos := 0 } := by
  match v, h with
  | [a, b, c, d], _ =>
    have e : (u32FromBe a b c d).toNat = beNat [a, b, c, d] := by
      rw [u32_join]; simp [beNat]; omega
    have e2 : AVP.u32OfSlice ([a, b, c, d].take 4) = .ok (u32FromBe a b c d) := rfl
    unfold AVP.encodeDate
    rw [if_neg (by simp), e2, Out.bind_ok, dateOf_eq, e]

/-- **C23** Dates are kept as seconds modulo 2^32, hence exactly from 1970 to 2106. -/
theorem C23_date (t : AVPType) (dt : DateTime) :
    (AVP.fromDate t dt).typ = t ∧
    (AVP.fromDate t dt).encodeDate = .ok { secs := dt.secs % 4294967296, nanos := 0 } ∧
    (0 ≤ dt.secs → dt.secs < 4294967296 →
      (AVP.fromDate t dt).encodeDate = .ok { secs := dt.secs, nanos := 0 }) := by
  have h1 : 0 ≤ dt.secs % 4294967296 := Int.emod_nonneg _ (by decide)
  have h2 : dt.secs % 4294967296 < 4294967296 := Int.emod_lt_of_pos _ (by decide)
  have key : (AVP.fromDate t dt).encodeDate = .ok { secs := dt.secs % 4294967296, nanos := 0 } := by
    have hw := C17_u32_write t (UInt32.ofNat (dt.secs.emod 4294967296).toNat)
    have e : AVP.fromDate t dt
        = ⟨t, (AVP.fromU32 t (UInt32.ofNat (dt.secs.emod 4294967296).toNat)).value⟩ := rfl
    rw [e, encodeDate_four _ _ hw.2.1, hw.2.2.1]
    congr 2
    rw [UInt32.toNat_ofNat']
    have e2 : dt.secs.emod 4294967296 = dt.secs % 4294967296 := rfl
    rw [e2]
    omega
  refine ⟨rfl, key, ?_⟩
  intro ha hb
  rw [key, Int.emod_eq_of_lt ha hb]

/-- **C23** Reading a date accepts exactly four bytes, and never panics. -/
theorem C23_date_read (a : AVP) :
    (a.value.length = 4 → a.encodeDate = .ok { secs := (beNat a.value : Nat), nanos := 0 }) ∧
    (a.value.length ≠ 4 → a.encodeDate = .err (.InvalidAttributeLengthError "4" a.value.length)) ∧
    a.encodeDate ≠ .panic := by
  have h1 : a.value.length = 4 → a.encodeDate = .ok { secs := (beNat a.value : Nat), nanos := 0 } :=
    encodeDate_four a.typ a.value
  have h2 : a.value.length ≠ 4 →
      a.encodeDate = .err (.InvalidAttributeLengthError "4" a.value.length) := by
    intro h; simp [AVP.encodeDate, h]
  refine ⟨h1, h2, ?_⟩
  by_cases h : a.value.length = 4
  · rw [h1 h]; simp
  · rw [h2 h]; simp

/-- 2106-02-07T06:28:15Z is kept, one second later and one second before 1970 are not. -/
example : (AVP.fromDate 55 ⟨4294967295, 7⟩).encodeDate = .ok ⟨4294967295, 0⟩ := by decide
example : (AVP.fromDate 55 ⟨4294967296, 7⟩).encodeDate = .ok ⟨0, 0⟩ := by decide
example : (AVP.fromDate 55 ⟨-1, 7⟩).encodeDate = .ok ⟨4294967295, 0⟩ := by decide

/-! ### Passwords -/

/-- The cipher of a text, also of the empty one, and its reveal. -/
theorem hide_reveal (H : Hash) (secret iv p : Bytes) :
    ∃ c, (if p.isEmpty then xorBytes (H (secret ++ iv)).val (List.replicate 16 0)
        else (cipherBlocks H secret iv (chunks 15 p)).flatten) = c ∧
      Hidden H secret iv p c ∧
      AVP.upToZero (AVP.revealLoop H secret (chunks 15 c) iv []) = beforeZero p := by
  refine ⟨_, rfl, ?_⟩
  by_cases hp : p = []
  · subst hp
    refine ⟨hidden_empty H secret iv, ?_⟩
    simp only [List.isEmpty_nil, ↓reduceIte]
    generalize hx : xorBytes (H (secret ++ iv)).val (List.replicate 16 0) = x
    have hl : x.length = 15 + 1 := by rw [← hx, xorBytes_length, (H _).property]; rfl
    have := chunks_of_flatten 15 [x] (by simpa using hl)
    simp only [List.flatten_cons, List.flatten_nil, List.append_nil] at this
    rw [this]
    simp only [AVP.revealLoop, List.nil_append]
    rw [← hx, xorBytes_cancel _ _ (by rw [(H _).property]; exact Nat.le_refl _), upToZero_eq]
    rfl
  · have hne : p.isEmpty = false := by simpa using hp
    rw [hne]
    refine ⟨hidden_of_chunks H secret iv p hp, ?_⟩
    have hlen := fun c hc => (chunks_length_le 15 p c hc).1
    simp only [Bool.false_eq_true, ↓reduceIte]
    rw [chunks_of_flatten 15 _ (cipherBlocks_lengths H secret iv _ hlen),
      revealLoop_cipher H secret iv [] _ hlen, upToZero_eq]
    obtain ⟨k, hk⟩ := padded_flatten p
    rw [hk, List.nil_append, takeWhile_zeros]
    rfl

theorem fromUserPassword_ok (H : Hash) (t : AVPType) (p secret auth : Bytes) (hp : p.length ≤ 128)
    (hs : secret ≠ []) (ha : auth.length = 16) :
    ∃ c, AVP.fromUserPassword H t p secret auth = .ok ⟨t, c⟩ ∧ Hidden H secret auth p c ∧
      AVP.upToZero (AVP.revealLoop H secret (chunks 15 c) auth []) = beforeZero p := by
  obtain ⟨c, hc, hh, hr⟩ := hide_reveal H secret auth p
  refine ⟨c, ?_, hh, hr⟩
  have hs' : secret.isEmpty = false := by simpa using hs
  unfold AVP.fromUserPassword
  rw [if_neg (by omega), hs', if_neg (by simp), if_neg (by simpa using ha), ← hc]
  by_cases he : p.isEmpty
  · simp only [he, ↓reduceIte]
  · simp only [he, Bool.false_eq_true, ↓reduceIte]
    rw [hideLoop_eq, List.nil_append]

/-- **C26** User-Password hiding is the RFC 2865 section 5.2 formula, and its preconditions are reported. -/
theorem C26_user_password_hiding (H : Hash) (t : AVPType) (p secret auth : Bytes) :
    (p.length ≤ 128 → secret ≠ [] → auth.length = 16 →
      ∃ c, AVP.fromUserPassword H t p secret auth = .ok ⟨t, c⟩ ∧ Hidden H secret auth p c) ∧
    (128 < p.length → AVP.fromUserPassword H t p secret auth
      = .err (.UserPasswordPlainTextMaximumLengthExceededError p.length)) ∧
    (p.length ≤ 128 → secret = [] →
      AVP.fromUserPassword H t p secret auth = .err .PasswordSecretMissingError) ∧
    (p.length ≤ 128 → secret ≠ [] → auth.length ≠ 16 →
      AVP.fromUserPassword H t p secret auth = .err .InvalidRequestAuthenticatorLength) := by
  refine ⟨?_, ?_, ?_, ?_⟩
  · intro h1 h2 h3
    obtain ⟨c, h, h', _⟩ := fromUserPassword_ok H t p secret auth h1 h2 h3
    exact ⟨c, h, h'⟩
  · intro h; unfold AVP.fromUserPassword; rw [if_pos h]
  · intro h hs; unfold AVP.fromUserPassword; rw [if_neg (by omega), if_pos (by simp [hs])]
  · intro h hs ha
    unfold AVP.fromUserPassword
    rw [if_neg (by omega), if_neg (by simpa using hs), if_pos ha]

/-- **C26** The specification of the hidden value determines every byte of it. -/
theorem C26_hidden_unique (H : Hash) (secret iv p c c' : Bytes) (h : Hidden H secret iv p c)
    (h' : Hidden H secret iv p c') : c = c' := h.unique h'

theorem blockCount_bounds (n : Nat) : 16 ≤ 16 * blockCount n ∧ (n ≤ 128 → 16 * blockCount n ≤ 128) ∧
    (n ≤ 240 → 16 * blockCount n ≤ 240) ∧ n ≤ 16 * blockCount n := by
  unfold blockCount; omega

theorem beforeZero_of_not_mem (p : Bytes) (h : 0 ∉ p) : beforeZero p = p := by
  induction p with
  | nil => rfl
  | cons x xs ih =>
    simp only [List.mem_cons, not_or] at h
    have hx : (x != 0) = true := by simp only [bne_iff_ne, ne_eq]; exact fun e => h.1 e.symm
    have := ih h.2
    unfold beforeZero at this ⊢
    rw [List.takeWhile_cons, hx, if_pos rfl, this]

/-- **C27** Revealing inverts hiding up to the first zero byte. -/
theorem C27_user_password_reveal (H : Hash) (t : AVPType) (p secret auth : Bytes) (hp : p.length ≤ 128)
    (hs : secret ≠ []) (ha : auth.length = 16) :
    ∃ a, AVP.fromUserPassword H t p secret auth = .ok a ∧
      a.encodeUserPassword H secret auth = .ok (beforeZero p) ∧
      (0 ∉ p → a.encodeUserPassword H secret auth = .ok p) := by
  obtain ⟨c, h, hh, hr⟩ := fromUserPassword_ok H t p secret auth hp hs ha
  have hl := hh.1
  have hb := blockCount_bounds p.length
  have hb2 := hb.2.1 hp
  have key : AVP.encodeUserPassword H ⟨t, c⟩ secret auth = .ok (beforeZero p) := by
    unfold AVP.encodeUserPassword
    rw [if_neg (by simp only; omega), if_neg (by simpa using hs), if_neg (by simpa using ha)]
    simp only [hr]
  refine ⟨_, h, key, ?_⟩
  intro h0
  rw [key]
  congr 1
  exact beforeZero_of_not_mem p h0

/-- **C27** The reader on every value: it undoes the chaining byte by byte and returns the bytes before the
first zero, or the documented error; it never panics. -/
theorem C27_user_password_reader (H : Hash) (a : AVP) (secret auth : Bytes) :
    (a.value.length < 16 ∨ 128 < a.value.length → ∃ m, a.encodeUserPassword H secret auth
      = .err (.InvalidAttributeLengthError m a.value.length)) ∧
    (16 ≤ a.value.length → a.value.length ≤ 128 → secret = [] →
      a.encodeUserPassword H secret auth = .err .PasswordSecretMissingError) ∧
    (16 ≤ a.value.length → a.value.length ≤ 128 → secret ≠ [] → auth.length ≠ 16 →
      a.encodeUserPassword H secret auth = .err .InvalidRequestAuthenticatorLength) ∧
    (16 ≤ a.value.length → a.value.length ≤ 128 → secret ≠ [] → auth.length = 16 →
      ∃ d, Revealed H secret auth a.value d ∧
        a.encodeUserPassword H secret auth = .ok (beforeZero d)) := by
  refine ⟨?_, ?_, ?_, ?_⟩
  · intro h; unfold AVP.encodeUserPassword; rw [if_pos (by omega)]; exact ⟨_, rfl⟩
  · intro h h' hs; unfold AVP.encodeUserPassword; rw [if_neg (by omega), if_pos (by simp [hs])]
  · intro h h' hs ha
    unfold AVP.encodeUserPassword
    rw [if_neg (by omega), if_neg (by simpa using hs), if_pos ha]
  · intro h h' hs ha
    obtain ⟨d, hd, hr⟩ := revealLoop_spec H secret a.value auth []
    refine ⟨d, hr, ?_⟩
    unfold AVP.encodeUserPassword
    rw [if_neg (by omega), if_neg (by simpa using hs), if_neg (by simpa using ha)]
    simp only [hd, upToZero_eq]
    rfl

/-- A password of 20 bytes under MD5. -/
example : (match AVP.fromUserPassword Md5.md5 2 (List.replicate 20 0x61) [0x73] (List.replicate 16 1) with
    | .ok a => a.value.length == 32 && decide (a.encodeUserPassword Md5.md5 [0x73] (List.replicate 16 1)
        = .ok (List.replicate 20 0x61))
    | _ => false) = true := by decide +kernel

theorem or_0x80 (r : UInt8) : 128 ≤ (r ||| 0x80).toNat ∧ (r ||| 0x80).toNat % 128 = r.toNat % 128 ∧
    (r ||| 0x80) &&& 0x80 = 0x80 := by
  have key : ∀ n : Fin 256, 128 ≤ (UInt8.ofNat n.val ||| 0x80).toNat ∧
      (UInt8.ofNat n.val ||| 0x80).toNat % 128 = (UInt8.ofNat n.val).toNat % 128 ∧
      (UInt8.ofNat n.val ||| 0x80) &&& 0x80 = 0x80 := by decide +kernel
  simpa using key ⟨r.toNat, r.toNat_lt⟩

/-- **C29** Tunnel-Password: tag, salt with the top bit set, and RFC 2868 chained blocks. Note the missing
check of the password length and the missing length octet of RFC 2868. -/
theorem C29_tunnel_password_hiding (H : Hash) (r0 r1 : UInt8) (t : AVPType) (tag : Option Tag)
    (p secret auth : Bytes) :
    (secret ≠ [] → auth.length = 16 →
      ∃ s0 c, AVP.fromTunnelPassword H r0 r1 t tag p secret auth
          = .ok ⟨t, tag.elim 0 Tag.getValue :: s0 :: r1 :: c⟩ ∧
        128 ≤ s0.toNat ∧ s0.toNat % 128 = r0.toNat % 128 ∧ Hidden H secret (auth ++ [s0, r1]) p c) ∧
    (auth.length ≤ 240 → secret = [] →
      AVP.fromTunnelPassword H r0 r1 t tag p secret auth = .err .PasswordSecretMissingError) ∧
    (auth.length ≠ 16 → auth.length ≤ 240 → secret ≠ [] →
      AVP.fromTunnelPassword H r0 r1 t tag p secret auth = .err .InvalidRequestAuthenticatorLength) ∧
    (240 < auth.length → AVP.fromTunnelPassword H r0 r1 t tag p secret auth
      = .err (.InvalidAttributeLengthError "240 bytes" auth.length)) := by
  refine ⟨?_, ?_, ?_, ?_⟩
  · intro hs ha
    obtain ⟨c, hc, hh, hr⟩ := hide_reveal H secret (auth ++ [r0 ||| 0x80, r1]) p
    refine ⟨r0 ||| 0x80, c, ?_, (or_0x80 r0).1, (or_0x80 r0).2.1, hh⟩
    unfold AVP.fromTunnelPassword
    rw [if_neg (by omega)]
    simp only
    rw [if_neg (by simpa using hs), if_neg (by simpa using ha), ← hc]
    have et : tag.elim UNUSED_TAG_VALUE (fun v => v.value) = tag.elim 0 Tag.getValue := by
      cases tag <;> rfl
    by_cases he : p.isEmpty
    · simp [he, et]
    · simp [he, et, hideLoop_eq]
  · intro ha hs
    unfold AVP.fromTunnelPassword
    rw [if_neg (by omega)]
    simp only
    rw [if_pos (by simp [hs])]
  · intro ha h hs
    unfold AVP.fromTunnelPassword
    rw [if_neg (by omega)]
    simp only
    rw [if_neg (by simpa using hs), if_pos ha]
  · intro ha
    unfold AVP.fromTunnelPassword
    rw [if_pos ha]

/-- The reader on a value of the right size. -/
theorem encodeTunnelPassword_ok (H : Hash) (t : AVPType) (tg s0 s1 : UInt8) (c secret auth : Bytes)
    (hs0 : s0 &&& 0x80 = 0x80) (hc : 16 ≤ c.length) (hc' : c.length ≤ 240) (hm : c.length % 16 = 0)
    (hs : secret ≠ []) (ha : auth.length = 16) :
    AVP.encodeTunnelPassword H ⟨t, tg :: s0 :: s1 :: c⟩ secret auth
      = .ok (AVP.upToZero (AVP.revealLoop H secret (chunks 15 c) (auth ++ [s0, s1]) []), ⟨tg⟩) := by
  unfold AVP.encodeTunnelPassword
  rw [if_neg (by simp only [List.length_cons]; omega)]
  have h1 : (idx (tg :: s0 :: s1 :: c) 1 : Out AVPError UInt8) = .ok s0 := rfl
  have h0 : (idx (tg :: s0 :: s1 :: c) 0 : Out AVPError UInt8) = .ok tg := rfl
  have h2 : (slice (tg :: s0 :: s1 :: c) 1 3 : Out AVPError Bytes) = .ok [s0, s1] := by
    rw [slice_of_le _ _ _ (by omega) (by simp)]; simp
  have h3 : (sliceFrom (tg :: s0 :: s1 :: c) 3 : Out AVPError Bytes) = .ok c := by
    rw [sliceFrom_of_le _ _ (by simp)]; simp
  simp only [h1, h0, h2, h3, Out.bind_ok]
  rw [if_neg (by simp [hs0]), if_neg (by simpa using hs), if_neg (by simpa using ha)]

/-- **C29** Reveal returns the tag and the password up to its first zero byte for at most 240 bytes;
longer passwords are accepted by the writer but always rejected by the reader. -/
theorem C29_tunnel_password_reveal (H : Hash) (r0 r1 : UInt8) (t : AVPType) (tag : Option Tag)
    (p secret auth : Bytes) (hs : secret ≠ []) (ha : auth.length = 16) :
    ∃ a, AVP.fromTunnelPassword H r0 r1 t tag p secret auth = .ok a ∧
      (p.length ≤ 240 → a.encodeTunnelPassword H secret auth
        = .ok (beforeZero p, ⟨tag.elim 0 Tag.getValue⟩)) ∧
      (240 < p.length → ∃ m, ∀ secret' auth', a.encodeTunnelPassword H secret' auth'
        = .err (.InvalidAttributeLengthError m a.value.length)) := by
  obtain ⟨c, hc, hh, hr⟩ := hide_reveal H secret (auth ++ [r0 ||| 0x80, r1]) p
  have et : tag.elim UNUSED_TAG_VALUE (fun v => v.value) = tag.elim 0 Tag.getValue := by
    cases tag <;> rfl
  have hw : AVP.fromTunnelPassword H r0 r1 t tag p secret auth
      = .ok ⟨t, tag.elim 0 Tag.getValue :: (r0 ||| 0x80) :: r1 :: c⟩ := by
    unfold AVP.fromTunnelPassword
    rw [if_neg (by omega)]
    simp only
    rw [if_neg (by simpa using hs), if_neg (by simpa using ha), ← hc]
    by_cases he : p.isEmpty
    · simp [he, et]
    · simp [he, et, hideLoop_eq]
  have hb := blockCount_bounds p.length
  have hl := hh.1
  refine ⟨_, hw, ?_, ?_⟩
  · intro hp
    have := hb.2.2.1 hp
    rw [encodeTunnelPassword_ok H t _ _ _ c secret auth (or_0x80 r0).2.2 (by omega) (by omega) (by omega)
      hs ha, hr]
  · intro hp
    refine ⟨"19 <= bytes && bytes <= 242 && (bytes - 3) % 16 == 0", fun secret' auth' => ?_⟩
    unfold AVP.encodeTunnelPassword
    rw [if_pos (by simp only [List.length_cons]; omega)]

/-- **C29** The reader on every value. -/
theorem C29_tunnel_password_reader (H : Hash) (a : AVP) (secret auth : Bytes) :
    (¬ (∃ k, 1 ≤ k ∧ k ≤ 15 ∧ a.value.length = 3 + 16 * k) →
      ∃ m, a.encodeTunnelPassword H secret auth = .err (.InvalidAttributeLengthError m a.value.length)) ∧
    (∀ tg s0 s1 c k, a.value = tg :: s0 :: s1 :: c → 1 ≤ k → k ≤ 15 → c.length = 16 * k →
      (s0.toNat < 128 → a.encodeTunnelPassword H secret auth = .err (.InvalidSaltMSBError s0)) ∧
      (128 ≤ s0.toNat → secret = [] →
        a.encodeTunnelPassword H secret auth = .err .PasswordSecretMissingError) ∧
      (128 ≤ s0.toNat → secret ≠ [] → auth.length ≠ 16 →
        a.encodeTunnelPassword H secret auth = .err .InvalidRequestAuthenticatorLength) ∧
      (128 ≤ s0.toNat → secret ≠ [] → auth.length = 16 →
        ∃ d, Revealed H secret (auth ++ [s0, s1]) c d ∧
          a.encodeTunnelPassword H secret auth = .ok (beforeZero d, ⟨tg⟩))) := by
  obtain ⟨t, v⟩ := a
  constructor
  · intro h
    unfold AVP.encodeTunnelPassword
    by_cases h1 : v.length < 19 ∨ v.length > 243 ∨ (v.length - 3) % 16 ≠ 0
    · rw [if_pos h1]; exact ⟨_, rfl⟩
    · exact absurd ⟨(v.length - 3) / 16, by omega, by omega, by simp only; omega⟩ h
  · intro tg s0 s1 c k hv hk hk' hc
    simp only at hv
    subst hv
    have hmsb : (s0 &&& 0x80 = 0x80 ↔ 128 ≤ s0.toNat) := by
      have key : ∀ n : Fin 256, (UInt8.ofNat n.val &&& 0x80 = 0x80 ↔ 128 ≤ (UInt8.ofNat n.val).toNat) := by
        decide +kernel
      simpa using key ⟨s0.toNat, s0.toNat_lt⟩
    have h1 : (idx (tg :: s0 :: s1 :: c) 1 : Out AVPError UInt8) = .ok s0 := rfl
    have hlen : ¬ ((tg :: s0 :: s1 :: c).length < 19 ∨ (tg :: s0 :: s1 :: c).length > 243 ∨
        ((tg :: s0 :: s1 :: c).length - 3) % 16 ≠ 0) := by
      simp only [List.length_cons]; omega
    refine ⟨?_, ?_, ?_, ?_⟩
    · intro h
      unfold AVP.encodeTunnelPassword
      rw [if_neg hlen]
      simp only [h1, Out.bind_ok]
      rw [if_pos (by rw [ne_eq, hmsb]; omega)]
    · intro h hs
      unfold AVP.encodeTunnelPassword
      rw [if_neg hlen]
      simp only [h1, Out.bind_ok]
      rw [if_neg (by rw [ne_eq, hmsb]; omega), if_pos (by simp [hs])]
    · intro h hs ha
      unfold AVP.encodeTunnelPassword
      rw [if_neg hlen]
      simp only [h1, Out.bind_ok]
      rw [if_neg (by rw [ne_eq, hmsb]; omega), if_neg (by simpa using hs), if_pos ha]
    · intro h hs ha
      obtain ⟨d, hd, hr⟩ := revealLoop_spec H secret c (auth ++ [s0, s1]) []
      refine ⟨d, hr, ?_⟩
      rw [encodeTunnelPassword_ok H t tg s0 s1 c secret auth (hmsb.2 h) (by omega) (by omega) (by omega)
        hs ha, hd, upToZero_eq]
      rfl

/-- Both cases of the reveal theorem occur under MD5: 20 bytes and 241 bytes. -/
example : (match AVP.fromTunnelPassword Md5.md5 1 2 69 (some ⟨5⟩) (List.replicate 20 0x61) [0x73]
      (List.replicate 16 1) with
    | .ok a => a.value.length == 35 && decide (a.encodeTunnelPassword Md5.md5 [0x73] (List.replicate 16 1)
        = .ok (List.replicate 20 0x61, ⟨5⟩))
    | _ => false) = true := by decide +kernel
example : (match AVP.fromTunnelPassword Md5.md5 1 2 69 none (List.replicate 241 0x61) [0x73]
      (List.replicate 16 1) with
    | .ok a => a.value.length == 259
    | _ => false) = true := by decide +kernel

end Radius

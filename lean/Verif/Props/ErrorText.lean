import Verif.Model.ErrorText
import Verif.Props.Client
import Verif.Props.Net
/-! # C71: error texts tell errors apart -/
namespace Radius
open Spec

theorem toString_chars (n : Nat) : (toString n).toList = fmtDec n := by
  show (Nat.repr n).toList = _
  simp [Nat.repr, fmtDec]

theorem chars_append (a b : String) : (a ++ b).toList = a.toList ++ b.toList := String.toList_append

theorem chars_inj {a b : String} (h : a.toList = b.toList) : a = b := String.toList_inj.1 h

/-- Texts that begin differently. -/
theorem clash {k : Nat} {a b x y : List Char} (h : a ++ x = b ++ y) (ha : k ≤ a.length) (hb : k ≤ b.length) :
    a.take k = b.take k := by
  have := congrArg (List.take k) h
  rwa [List.take_append_of_le_length ha, List.take_append_of_le_length hb] at this

theorem not_num {c : Char} (hc : isNumChar c = false) (n : Nat) : c ∉ fmtDec n := by
  intro hm
  have := fmtDec_num n c hm
  rw [hc] at this; cases this

/-- The beginning of a text that does not depend on the values reported. -/
def ClientError.head : ClientError → String
  | .FailedUdpSocketBindingError _ => "failed to bind a UDP socket; "
  | .FailedEstablishingUdpConnectionError .. => "failed to establish a UDP connection to "
  | .FailedRadiusPacketEncodingError _ => "failed to encode a RADIUS request; "
  | .FailedSendingRadiusPacketError .. => "failed to send a UDP datagram to "
  | .FailedReceivingResponseError .. => "failed to receive the UDP response from "
  | .FailedDecodingRadiusResponseError _ => "failed to decode a RADIUS response packet; "
  | .ConnectionTimeoutError => "connection timeout"
  | .SocketTimeoutError => "socket timeout"

/-- No semicolon in the text of an address. -/
theorem no_semicolon (a : SocketAddr) : ';' ∉ a.display.toList := by
  have e : a.display.toList = a.displayChars := by simp [SocketAddr.display]
  rw [e]
  intro hm
  have h5 : ∀ n, ';' ∉ fmtDec n := not_num (by decide)
  cases a with
  | v4 ip port =>
    simp only [SocketAddr.displayChars, List.mem_append, List.mem_cons] at hm
    rcases hm with h | h | h
    · rcases ip.display_chars _ h with h | h <;> exact absurd h (by decide)
    · exact absurd h (by decide)
    · exact h5 _ h
  | v6 ip port f s =>
    rw [displayChars_v6] at hm
    split at hm <;> simp only [List.mem_append, List.mem_cons] at hm
    · rcases hm with h | h | h | h | h
      · exact absurd h (by decide)
      · rcases ip.display_chars _ h with h | h | h <;> exact absurd h (by decide)
      · exact absurd h (by decide)
      · exact absurd h (by decide)
      · exact h5 _ h
    · rcases hm with h | h | h | h | h | h | h
      · exact absurd h (by decide)
      · rcases ip.display_chars _ h with h | h | h <;> exact absurd h (by decide)
      · exact absurd h (by decide)
      · exact h5 _ h
      · exact absurd h (by decide)
      · exact absurd h (by decide)
      · exact h5 _ h

/-- An address and a message separated by a semicolon. -/
theorem split_message {a b : SocketAddr} {h x y : String}
    (e : (h ++ a.display ++ "; " ++ x) = (h ++ b.display ++ "; " ++ y)) : a.display = b.display ∧ x = y := by
  have := congrArg String.toList e
  simp only [chars_append, List.append_assoc] at this
  have := List.append_cancel_left this
  obtain ⟨h1, _, h2⟩ := split_at (no_semicolon a) (no_semicolon b)
    (show a.display.toList ++ ';' :: (' ' :: x.toList) = b.display.toList ++ ';' :: (' ' :: y.toList) from this)
  exact ⟨chars_inj h1, chars_inj (List.cons.inj h2).2⟩

theorem split_single {h x y : String} (e : h ++ x = h ++ y) : x = y := by
  have := congrArg String.toList e
  simp only [chars_append] at this
  exact chars_inj (List.append_cancel_left this)

/-- The rest of a text. -/
def ClientError.tail : ClientError → List Char
  | .FailedUdpSocketBindingError e => e.toList
  | .FailedEstablishingUdpConnectionError addr e => addr.toList ++ ("; ".toList ++ e.toList)
  | .FailedRadiusPacketEncodingError e => e.toList
  | .FailedSendingRadiusPacketError addr e => addr.toList ++ ("; ".toList ++ e.toList)
  | .FailedReceivingResponseError addr e => addr.toList ++ ("; ".toList ++ e.toList)
  | .FailedDecodingRadiusResponseError e => e.toList
  | .ConnectionTimeoutError => []
  | .SocketTimeoutError => []

-- the arms of the definition
theorem ClientError.text0 (e) : (ClientError.FailedUdpSocketBindingError e).display =
    "failed to bind a UDP socket; " ++ e := rfl
theorem ClientError.text1 (addr e) : (ClientError.FailedEstablishingUdpConnectionError addr e).display =
    "failed to establish a UDP connection to " ++ addr ++ "; " ++ e := rfl
theorem ClientError.text2 (e) : (ClientError.FailedRadiusPacketEncodingError e).display =
    "failed to encode a RADIUS request; " ++ e := rfl
theorem ClientError.text3 (addr e) : (ClientError.FailedSendingRadiusPacketError addr e).display =
    "failed to send a UDP datagram to " ++ addr ++ "; " ++ e := rfl
theorem ClientError.text4 (addr e) : (ClientError.FailedReceivingResponseError addr e).display =
    "failed to receive the UDP response from " ++ addr ++ "; " ++ e := rfl
theorem ClientError.text5 (e) : (ClientError.FailedDecodingRadiusResponseError e).display =
    "failed to decode a RADIUS response packet; " ++ e := rfl
theorem ClientError.text6 : (ClientError.ConnectionTimeoutError).display =
    "connection timeout" := rfl
theorem ClientError.text7 : (ClientError.SocketTimeoutError).display =
    "socket timeout" := rfl

theorem client_text (e : ClientError) : e.display.toList = e.head.toList ++ e.tail := by
  cases e <;> simp only [ClientError.text0, ClientError.text1, ClientError.text2, ClientError.text3,
    ClientError.text4, ClientError.text5, ClientError.text6, ClientError.text7, ClientError.head, ClientError.tail,
      chars_append, List.append_assoc, List.append_nil]

/-- The kind of error, as a number. -/
def ClientError.kind : ClientError → Fin 8
  | .FailedUdpSocketBindingError _ => 0
  | .FailedEstablishingUdpConnectionError .. => 1
  | .FailedRadiusPacketEncodingError _ => 2
  | .FailedSendingRadiusPacketError .. => 3
  | .FailedReceivingResponseError .. => 4
  | .FailedDecodingRadiusResponseError _ => 5
  | .ConnectionTimeoutError => 6
  | .SocketTimeoutError => 7

/-- One error of each kind. -/
def ClientError.ofKind : Fin 8 → ClientError
  | 0 => .FailedUdpSocketBindingError ""
  | 1 => .FailedEstablishingUdpConnectionError "" ""
  | 2 => .FailedRadiusPacketEncodingError ""
  | 3 => .FailedSendingRadiusPacketError "" ""
  | 4 => .FailedReceivingResponseError "" ""
  | 5 => .FailedDecodingRadiusResponseError ""
  | 6 => .ConnectionTimeoutError
  | 7 => .SocketTimeoutError

theorem ClientError.head_kind (a : ClientError) : a.head = (ClientError.ofKind a.kind).head := by
  cases a <;> simp only [ClientError.kind, ClientError.ofKind, ClientError.head]

theorem client_kind (a b : ClientError) (h : a.display = b.display) : a.kind = b.kind := by
  have e : ∀ a : ClientError, a.head = (ClientError.ofKind a.kind).head := ClientError.head_kind
  have hl : ∀ i, 14 ≤ (ClientError.ofKind i).head.toList.length := by decide +kernel
  have hd : ∀ i j, (ClientError.ofKind i).head.toList.take 14 = (ClientError.ofKind j).head.toList.take 14 → i = j := by
    decide +kernel
  have := congrArg String.toList h
  rw [client_text, client_text, e a, e b] at this
  exact hd _ _ (clash this (hl _) (hl _))

/-- **C71** Two errors returned by `send_packet`, from any two calls,
    with the same text are the same error: same stage, same
remote address in the text, same message. -/
theorem C71_client_errors (H H' : Hash) (ck ck' : Bool) (c c' : Client) (env env' : ClientEnv) (remote remote' : SocketAddr)
    (p p' : Packet) (e e' : ClientError) (he : (c.sendPacket H ck env remote p).result = .ready (.err e))
    (he' : (c'.sendPacket H' ck' env' remote' p').result = .ready (.err e')) (h : e.display = e'.display) : e = e' := by
  have hk := client_kind e e' h
  have f := C45_result_identifies_stage H ck c env remote p _ rfl
  have f' := C45_result_identifies_stage H' ck' c' env' remote' p' _ rfl
  cases e <;> cases e' <;> first | (simp [ClientError.kind] at hk; done) | skip
  · rw [split_single h]
  · obtain ⟨_, rfl, _⟩ := (f.2.1 _ _).1 he
    obtain ⟨_, rfl, _⟩ := (f'.2.1 _ _).1 he'
    obtain ⟨h1, rfl⟩ := split_message h
    rw [h1]
  · rw [split_single h]
  · obtain ⟨_, _, rfl, _⟩ := (f.2.2.2.2.1 _ _).1 he
    obtain ⟨_, _, rfl, _⟩ := (f'.2.2.2.2.1 _ _).1 he'
    obtain ⟨h1, rfl⟩ := split_message h
    rw [h1]
  · obtain ⟨_, _, _, rfl, _⟩ := (f.2.2.2.2.2.1 _ _).1 he
    obtain ⟨_, _, _, rfl, _⟩ := (f'.2.2.2.2.2.1 _ _).1 he'
    obtain ⟨h1, rfl⟩ := split_message h
    rw [h1]
  · rw [split_single h]
  · rfl
  · rfl

/-- Digits, then a separator. -/
theorem split_digits {n m : Nat} {x y : List Char} {c : Char} (hc : isNumChar c = false)
    (h : fmtDec n ++ c :: x = fmtDec m ++ c :: y) : n = m ∧ x = y := by
  obtain ⟨h1, _, h2⟩ := split_at (not_num hc n) (not_num hc m) h
  exact ⟨fmtDec_inj h1, h2⟩

def AVPError.head : AVPError → String
  | .UserPasswordPlainTextMaximumLengthExceededError _ =>
    "the maximum length of the plain text for user-password is 128, but the given value has "
  | .PasswordSecretMissingError => "secret for password mustn't be empty, but the given value is empty"
  | .InvalidRequestAuthenticatorLength =>
    "request authenticator for password has to have 16-bytes payload, but the given value doesn't"
  | .InvalidAttributeLengthError .. => "invalid attribute length: expected="
  | .TagMissingError => "tag value is missing"
  | .DecodingError _ => "decoding error: "
  | .InvalidSaltMSBError _ => "invalid salt. the MSB has to be 1, but given value isn't: "
  | .InvalidTagForStringValueError => "invalid tag for string value. this must not be zero"
  | .InvalidTagForIntegerValueError => "invalid tag for integer value. this must be less than or equal 0x1f"
  | .HashComputationFailed _ => "computation of hash failed: "

def AVPError.tail : AVPError → List Char
  | .UserPasswordPlainTextMaximumLengthExceededError n => fmtDec n ++ " bytes".toList
  | .InvalidAttributeLengthError expected actual =>
    expected.toList ++ (", actual=".toList ++ (fmtDec actual ++ " bytes".toList))
  | .DecodingError msg => msg.toList
  | .InvalidSaltMSBError b => fmtDec b.toNat
  | .HashComputationFailed msg => msg.toList
  | _ => []

-- the arms of the definition
theorem AVPError.text0 (n : Nat) : (AVPError.UserPasswordPlainTextMaximumLengthExceededError n).display =
    "the maximum length of the plain text for user-password is 128, but the given value has " ++ toString n ++
      " bytes" := rfl
theorem AVPError.text1 : (AVPError.PasswordSecretMissingError).display =
    "secret for password mustn't be empty, but the given value is empty" := rfl
theorem AVPError.text2 : (AVPError.InvalidRequestAuthenticatorLength).display =
    "request authenticator for password has to have 16-bytes payload, but the given value doesn't" := rfl
theorem AVPError.text3 (expected) (actual : Nat) : (AVPError.InvalidAttributeLengthError expected actual).display =
    "invalid attribute length: expected=" ++ expected ++ ", actual=" ++ toString actual ++ " bytes" := rfl
theorem AVPError.text4 : (AVPError.TagMissingError).display =
    "tag value is missing" := rfl
theorem AVPError.text5 (msg) : (AVPError.DecodingError msg).display =
    "decoding error: " ++ msg := rfl
theorem AVPError.text6 (b : UInt8) : (AVPError.InvalidSaltMSBError b).display =
    "invalid salt. the MSB has to be 1, but given value isn't: " ++ toString b.toNat := rfl
theorem AVPError.text7 : (AVPError.InvalidTagForStringValueError).display =
    "invalid tag for string value. this must not be zero" := rfl
theorem AVPError.text8 : (AVPError.InvalidTagForIntegerValueError).display =
    "invalid tag for integer value. this must be less than or equal 0x1f" := rfl
theorem AVPError.text9 (msg) : (AVPError.HashComputationFailed msg).display =
    "computation of hash failed: " ++ msg := rfl

theorem avp_text (e : AVPError) : e.display.toList = e.head.toList ++ e.tail := by
  cases e <;> simp only [AVPError.text0, AVPError.text1, AVPError.text2, AVPError.text3, AVPError.text4,
    AVPError.text5, AVPError.text6, AVPError.text7, AVPError.text8, AVPError.text9, AVPError.head, AVPError.tail,
      chars_append, toString_chars, List.append_assoc,
    List.append_nil]

def AVPError.kind : AVPError → Fin 10
  | .UserPasswordPlainTextMaximumLengthExceededError _ => 0
  | .PasswordSecretMissingError => 1
  | .InvalidRequestAuthenticatorLength => 2
  | .InvalidAttributeLengthError .. => 3
  | .TagMissingError => 4
  | .DecodingError _ => 5
  | .InvalidSaltMSBError _ => 6
  | .InvalidTagForStringValueError => 7
  | .InvalidTagForIntegerValueError => 8
  | .HashComputationFailed _ => 9

def AVPError.ofKind : Fin 10 → AVPError
  | 0 => .UserPasswordPlainTextMaximumLengthExceededError 0
  | 1 => .PasswordSecretMissingError
  | 2 => .InvalidRequestAuthenticatorLength
  | 3 => .InvalidAttributeLengthError "" 0
  | 4 => .TagMissingError
  | 5 => .DecodingError ""
  | 6 => .InvalidSaltMSBError 0
  | 7 => .InvalidTagForStringValueError
  | 8 => .InvalidTagForIntegerValueError
  | 9 => .HashComputationFailed ""

theorem AVPError.head_kind (a : AVPError) : a.head = (AVPError.ofKind a.kind).head := by
  cases a <;> simp only [AVPError.kind, AVPError.ofKind, AVPError.head]

theorem avp_kind (a b : AVPError) (h : a.display = b.display) : a.kind = b.kind := by
  have e : ∀ a : AVPError, a.head = (AVPError.ofKind a.kind).head := AVPError.head_kind
  have hl : ∀ i, 16 ≤ (AVPError.ofKind i).head.toList.length := by decide +kernel
  -- the two texts about tags differ only later
  have hd : ∀ i j, (AVPError.ofKind i).head.toList.take 16 = (AVPError.ofKind j).head.toList.take 16 →
      i = j ∨ (i = 7 ∧ j = 8) ∨ (i = 8 ∧ j = 7) := by
    decide +kernel
  have ht := congrArg String.toList h
  rw [avp_text, avp_text, e a, e b] at ht
  have tags : AVPError.InvalidTagForStringValueError.display ≠ AVPError.InvalidTagForIntegerValueError.display := by
    decide +kernel
  have k7 : ∀ a : AVPError, a.kind = 7 → a = .InvalidTagForStringValueError := by
    intro a; cases a <;> intro hk <;> first | rfl | (simp [AVPError.kind] at hk; done)
  have k8 : ∀ a : AVPError, a.kind = 8 → a = .InvalidTagForIntegerValueError := by
    intro a; cases a <;> intro hk <;> first | rfl | (simp [AVPError.kind] at hk; done)
  rcases hd _ _ (clash ht (hl _) (hl _)) with hk | ⟨h1, h2⟩ | ⟨h1, h2⟩
  · exact hk
  · rw [k7 a h1, k8 b h2] at h; exact absurd h tags
  · rw [k8 a h1, k7 b h2] at h; exact absurd h.symm tags

/-- **C71** Different `AVPError`s have different texts. -/
theorem C71_avp_errors (a b : AVPError) : a.display = b.display ↔ a = b := by
  refine ⟨fun h => ?_, fun h => by rw [h]⟩
  have hk := avp_kind a b h
  cases a <;> cases b <;> first | (simp [AVPError.kind] at hk; done) | rfl | skip
  · have := congrArg String.toList h
    simp only [AVPError.text0, AVPError.text1, AVPError.text2, AVPError.text3, AVPError.text4, AVPError.text5,
      AVPError.text6, AVPError.text7, AVPError.text8, AVPError.text9, chars_append, toString_chars,
      List.append_assoc] at this
    have e : " bytes".toList = ' ' :: "bytes".toList := by decide +kernel
    rw [e] at this
    rw [(split_digits (c := ' ') (by decide) (List.append_cancel_left this)).1]
  · next x n y m =>
    have := congrArg String.toList h
    simp only [AVPError.text0, AVPError.text1, AVPError.text2, AVPError.text3, AVPError.text4, AVPError.text5,
      AVPError.text6, AVPError.text7, AVPError.text8, AVPError.text9, chars_append, toString_chars,
      List.append_assoc] at this
    have := List.append_cancel_left this
    -- read from the right
    have := congrArg List.reverse this
    simp only [List.reverse_append, List.append_assoc] at this
    have := List.append_cancel_left this
    have e : ", actual=".toList.reverse = '=' :: ", actual".toList.reverse := by decide +kernel
    rw [e] at this
    simp only [List.cons_append] at this
    obtain ⟨h1, _, h2⟩ := split_at (by rw [List.mem_reverse]; exact not_num (by decide) n)
      (by rw [List.mem_reverse]; exact not_num (by decide) m) this
    have h3 := List.append_cancel_left h2
    rw [fmtDec_inj (List.reverse_inj.1 h1), chars_inj (List.reverse_inj.1 h3)]
  · rw [split_single h]
  · next x y =>
    have := split_single h
    have := congrArg String.toList this
    rw [toString_chars, toString_chars] at this
    rw [UInt8.toNat_inj.1 (fmtDec_inj this)]
  · rw [split_single h]

def PacketError.head : PacketError → String
  | .InsufficientPacketPayloadLengthError .. =>
    "RADIUS packet doesn't have enough length of bytes; it has to be at least "
  | .InsufficientHeaderDefinedPacketLengthError .. => "RADIUS packet header indicates the length as "
  | .HeaderDefinedPacketLengthExceedsMaximumLimitError .. => "RADIUS packet header indicates the length as "
  | .DecodingError _ => "failed to decode the packet: "
  | .EncodingError _ => "failed to encode the packet: "
  | .UnknownCodeError _ => "Unknown RADIUS packet type code: "
  | .HashComputationFailed _ => "computation of hash failed: "

def PacketError.tail : PacketError → List Char
  | .InsufficientPacketPayloadLengthError a b => fmtDec a ++ (" bytes, but actual length was ".toList ++ fmtDec b)
  | .InsufficientHeaderDefinedPacketLengthError a b =>
    fmtDec a ++ (" bytes, but this is insufficient; this must have ".toList ++ (fmtDec b ++ " bytes at least".toList))
  | .HeaderDefinedPacketLengthExceedsMaximumLimitError a b =>
    fmtDec a ++ (" bytes, but this exceeds the maximum length ".toList ++ (fmtDec b ++ " bytes".toList))
  | .DecodingError msg => msg.toList
  | .EncodingError msg => msg.toList
  | .UnknownCodeError msg => msg.toList
  | .HashComputationFailed msg => msg.toList

-- the arms of the definition
theorem PacketError.text0 (a b) : (PacketError.InsufficientPacketPayloadLengthError a b).display =
    "RADIUS packet doesn't have enough length of bytes; it has to be at least " ++ toString a ++
      " bytes, but actual length was " ++ toString b := rfl
theorem PacketError.text1 (a b) : (PacketError.InsufficientHeaderDefinedPacketLengthError a b).display =
    "RADIUS packet header indicates the length as " ++ toString a ++
      " bytes, but this is insufficient; this must have " ++ toString b ++ " bytes at least" := rfl
theorem PacketError.text2 (a b) : (PacketError.HeaderDefinedPacketLengthExceedsMaximumLimitError a b).display =
    "RADIUS packet header indicates the length as " ++ toString a ++
      " bytes, but this exceeds the maximum length " ++ toString b ++ " bytes" := rfl
theorem PacketError.text3 (msg) : (PacketError.DecodingError msg).display =
    "failed to decode the packet: " ++ msg := rfl
theorem PacketError.text4 (msg) : (PacketError.EncodingError msg).display =
    "failed to encode the packet: " ++ msg := rfl
theorem PacketError.text5 (msg) : (PacketError.UnknownCodeError msg).display =
    "Unknown RADIUS packet type code: " ++ msg := rfl
theorem PacketError.text6 (msg) : (PacketError.HashComputationFailed msg).display =
    "computation of hash failed: " ++ msg := rfl

theorem packet_text (e : PacketError) : e.display.toList = e.head.toList ++ e.tail := by
  cases e <;> simp only [PacketError.text0, PacketError.text1, PacketError.text2, PacketError.text3,
    PacketError.text4, PacketError.text5, PacketError.text6, PacketError.head, PacketError.tail, chars_append,
      toString_chars,
    List.append_assoc]

/-- The kind of error; the two about the length in the header have the same beginning. -/
def PacketError.kind : PacketError → Fin 6
  | .InsufficientPacketPayloadLengthError .. => 0
  | .InsufficientHeaderDefinedPacketLengthError .. => 1
  | .HeaderDefinedPacketLengthExceedsMaximumLimitError .. => 1
  | .DecodingError _ => 2
  | .EncodingError _ => 3
  | .UnknownCodeError _ => 4
  | .HashComputationFailed _ => 5

def PacketError.ofKind : Fin 6 → PacketError
  | 0 => .InsufficientPacketPayloadLengthError 0 0
  | 1 => .InsufficientHeaderDefinedPacketLengthError 0 0
  | 2 => .DecodingError ""
  | 3 => .EncodingError ""
  | 4 => .UnknownCodeError ""
  | 5 => .HashComputationFailed ""

theorem PacketError.head_kind (a : PacketError) : a.head = (PacketError.ofKind a.kind).head := by
  cases a <;> simp only [PacketError.kind, PacketError.ofKind, PacketError.head]

/-- **C71** Different `PacketError`s have different texts. -/
theorem C71_packet_errors (a b : PacketError) : a.display = b.display ↔ a = b := by
  refine ⟨fun h => ?_, fun h => by rw [h]⟩
  have ht := congrArg String.toList h
  have hh : a.head = b.head := by
    have e : ∀ a : PacketError, a.head = (PacketError.ofKind a.kind).head := PacketError.head_kind
    have hl : ∀ i, 28 ≤ (PacketError.ofKind i).head.toList.length := by decide +kernel
    have hd : ∀ i j,
      (PacketError.ofKind i).head.toList.take 28 = (PacketError.ofKind j).head.toList.take 28 → i = j := by
      decide +kernel
    rw [packet_text, packet_text, e a, e b] at ht
    rw [e a, e b, hd _ _ (clash ht (hl _) (hl _))]
  have hk : a.kind = b.kind := by
    have e : ∀ a : PacketError, a.head = (PacketError.ofKind a.kind).head := PacketError.head_kind
    have hd : ∀ i j, (PacketError.ofKind i).head = (PacketError.ofKind j).head → i = j := by decide +kernel
    exact hd _ _ (by rw [← e, ← e, hh])
  rw [packet_text, packet_text, hh] at ht
  have ht := List.append_cancel_left ht
  have e1 : " bytes, but actual length was ".toList = ' ' :: "bytes, but actual length was ".toList := by decide +kernel
  have e2 : " bytes, but this is insufficient; this must have ".toList =
    ' ' :: "bytes, but this is insufficient; this must have ".toList := by decide +kernel
  have e3 : " bytes, but this exceeds the maximum length ".toList =
    ' ' :: "bytes, but this exceeds the maximum length ".toList := by
    decide +kernel
  have e4 : " bytes at least".toList = ' ' :: "bytes at least".toList := by decide +kernel
  have e5 : " bytes".toList = ' ' :: "bytes".toList := by decide +kernel
  have differ : ∀ {x y : List Char}, "bytes, but this is insufficient; this must have ".toList ++ x ≠
      "bytes, but this exceeds the maximum length ".toList ++ y := by
    intro x y h
    exact absurd (clash (k := 20) h (by decide +kernel) (by decide +kernel)) (by decide +kernel)
  cases a <;> cases b <;> first | (simp [PacketError.kind] at hk; done) | skip
  · simp only [PacketError.tail, e1, List.cons_append] at ht
    obtain ⟨rfl, h2⟩ := split_digits (by decide) ht
    rw [fmtDec_inj (List.append_cancel_left h2)]
  · simp only [PacketError.tail, e2, e4, List.cons_append] at ht
    obtain ⟨rfl, h2⟩ := split_digits (by decide) ht
    rw [(split_digits (by decide) (List.append_cancel_left h2)).1]
  · simp only [PacketError.tail, e2, e3, List.cons_append] at ht
    obtain ⟨rfl, h2⟩ := split_digits (by decide) ht
    exact absurd h2 differ
  · simp only [PacketError.tail, e2, e3, List.cons_append] at ht
    obtain ⟨rfl, h2⟩ := split_digits (by decide) ht
    exact absurd h2.symm differ
  · simp only [PacketError.tail, e3, e5, List.cons_append] at ht
    obtain ⟨rfl, h2⟩ := split_digits (by decide) ht
    rw [(split_digits (by decide) (List.append_cancel_left h2)).1]
  all_goals
    simp only [PacketError.tail] at ht
    rw [chars_inj ht]

/-- **C71** What the text of a failed call tells. Two failed calls with the same text failed at the same stage. If the text
names an address, both were sent to the same endpoint; if it reports that encoding or decoding failed, this failed in both
for the same reason, with the same lengths. -/
theorem C71_same_text (H H' : Hash) (ck ck' : Bool) (c c' : Client) (env env' : ClientEnv) (remote remote' : SocketAddr)
    (p p' : Packet) (e e' : ClientError) (he : (c.sendPacket H ck env remote p).result = .ready (.err e))
    (he' : (c'.sendPacket H' ck' env' remote' p').result = .ready (.err e')) (h : e.display = e'.display) :
    ((env.bind = .ready (.ok ()) ↔ env'.bind = .ready (.ok ())) ∧ (Prepared env ↔ Prepared env')) ∧
    (∀ m, env.bind = .ready (.ok ()) → env.connect = .ready (.error m) →
      env'.connect = .ready (.error m) ∧ sameEndpoint remote remote') ∧
    (∀ x, Prepared env → p.encode H ck = .err x → p'.encode H' ck' = .err x) ∧
    (∀ m bs, Prepared env → p.encode H ck = .ok bs → env.send = .ready (.error m) →
      env'.send = .ready (.error m) ∧ sameEndpoint remote remote') ∧
    (∀ m bs, Prepared env → p.encode H ck = .ok bs → env.send = .ready (.ok ()) → env.recv = .ready (.error m) →
      env'.recv = .ready (.error m) ∧ sameEndpoint remote remote') ∧
    (∀ d bs x, Prepared env → p.encode H ck = .ok bs → env.send = .ready (.ok ()) → env.recv = .ready (.ok d) →
      Packet.decode (d.take 65507) p.secret = .err x →
      ∃ d', env'.recv = .ready (.ok d') ∧ Packet.decode (d'.take 65507) p'.secret = .err x) := by
  have hee := C71_client_errors H H' ck ck' c c' env env' remote remote' p p' e e' he he' h
  subst hee
  have f := C45_result_identifies_stage H ck c env remote p _ rfl
  have f' := C45_result_identifies_stage H' ck' c' env' remote' p' _ rfl
  refine ⟨?_, ?_, ?_, ?_, ?_, ?_⟩
  · obtain ⟨f1, f2, f3, f4, f5, f6, f7, f8, -⟩ := f
    obtain ⟨g1, g2, g3, g4, g5, g6, g7, g8, -⟩ := f'
    cases e with
    | FailedUdpSocketBindingError m =>
      have a := (f1 _).1 he; have b := (g1 _).1 he'
      simp [Prepared, a, b]
    | FailedEstablishingUdpConnectionError a m =>
      obtain ⟨a1, _, a2⟩ := (f2 _ _).1 he; obtain ⟨b1, _, b2⟩ := (g2 _ _).1 he'
      simp [Prepared, a1, a2, b1, b2]
    | ConnectionTimeoutError =>
      obtain ⟨a1, a2, _⟩ := f3.1 he; obtain ⟨b1, b2, _⟩ := g3.1 he'
      simp [Prepared, a1, a2, b1, b2]
    | FailedRadiusPacketEncodingError m =>
      have a := ((f4 _).1 he).1; have b := ((g4 _).1 he').1
      exact ⟨⟨fun _ => b.1, fun _ => a.1⟩, ⟨fun _ => b, fun _ => a⟩⟩
    | FailedSendingRadiusPacketError x m =>
      have a := ((f5 _ _).1 he).1; have b := ((g5 _ _).1 he').1
      exact ⟨⟨fun _ => b.1, fun _ => a.1⟩, ⟨fun _ => b, fun _ => a⟩⟩
    | FailedReceivingResponseError x m =>
      have a := ((f6 _ _).1 he).1; have b := ((g6 _ _).1 he').1
      exact ⟨⟨fun _ => b.1, fun _ => a.1⟩, ⟨fun _ => b, fun _ => a⟩⟩
    | SocketTimeoutError =>
      have a := (f7.1 he).1; have b := (g7.1 he').1
      exact ⟨⟨fun _ => b.1, fun _ => a.1⟩, ⟨fun _ => b, fun _ => a⟩⟩
    | FailedDecodingRadiusResponseError m =>
      have a := ((f8 _).1 he).1; have b := ((g8 _).1 he').1
      exact ⟨⟨fun _ => b.1, fun _ => a.1⟩, ⟨fun _ => b, fun _ => a⟩⟩
  · intro m hb hc
    have := (f.2.1 remote.display m).2 ⟨hb, rfl, hc⟩
    rw [he] at this; cases this
    obtain ⟨_, h1, h2⟩ := (f'.2.1 _ _).1 he'
    exact ⟨h2, (C54_address_text _ _).1 h1.symm⟩
  · intro x hp hx
    have := (f.2.2.2.1 x.display).2 ⟨hp, x, hx, rfl⟩
    rw [he] at this; cases this
    obtain ⟨_, y, h1, h2⟩ := (f'.2.2.2.1 _).1 he'
    rw [h1, (C71_packet_errors _ _).1 h2]
  · intro m bs hp hx hs
    have := (f.2.2.2.2.1 remote.display m).2 ⟨hp, ⟨bs, hx⟩, rfl, hs⟩
    rw [he] at this; cases this
    obtain ⟨_, _, h1, h2⟩ := (f'.2.2.2.2.1 _ _).1 he'
    exact ⟨h2, (C54_address_text _ _).1 h1.symm⟩
  · intro m bs hp hx hs hv
    have := (f.2.2.2.2.2.1 remote.display m).2 ⟨hp, ⟨bs, hx⟩, hs, rfl, hv⟩
    rw [he] at this; cases this
    obtain ⟨_, _, _, h1, h2⟩ := (f'.2.2.2.2.2.1 _ _).1 he'
    exact ⟨h2, (C54_address_text _ _).1 h1.symm⟩
  · intro d bs x hp hx hs hv hd
    have := (f.2.2.2.2.2.2.2.1 x.display).2 ⟨hp, ⟨bs, hx⟩, hs, d, x, hv, hd, rfl⟩
    rw [he] at this; cases this
    obtain ⟨_, _, _, d', y, h1, h2, h3⟩ := (f'.2.2.2.2.2.2.2.1 _).1 he'
    exact ⟨d', h1, by rw [h2, (C71_packet_errors _ _).1 h3]⟩

/-- Two failed calls, to different remotes, with the same text: both replies were two bytes long. -/
example : (((Client.new none none).sendPacket Md5.md5 true (answering [2, 9]) (.v4 ⟨127, 0, 0, 1⟩ 1812)
      (samplePacket .AccessRequest)).result = .ready (.err (.FailedDecodingRadiusResponseError
      "RADIUS packet doesn't have enough length of bytes; it has to be at least 20 bytes, but actual length was 2"))) ∧
    (((Client.new none none).sendPacket Md5.md5 true (answering [3, 5]) (.v4 ⟨10, 0, 0, 1⟩ 1812)
      (samplePacket .AccessRequest)).result = .ready (.err (.FailedDecodingRadiusResponseError
      "RADIUS packet doesn't have enough length of bytes; it has to be at least 20 bytes, but actual length was 2"))) := by
  decide +kernel

/-- Without knowing that the address is one, the text is ambiguous. -/
example : (ClientError.FailedSendingRadiusPacketError "a; b" "c").display =
    (ClientError.FailedSendingRadiusPacketError "a" "b; c").display := by decide +kernel

example : (AVPError.InvalidAttributeLengthError "4 bytes" 3).display =
    "invalid attribute length: expected=4 bytes, actual=3 bytes" := by decide +kernel

end Radius

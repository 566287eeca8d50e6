import Verif.Model.Vsa
import Verif.Spec.Vsa
import Verif.Props.Encode
import Verif.Props.Avp
import Verif.Props.AttributeList
/-! # C33: vendor-specific attributes -/
namespace Radius
open Spec

theorem i32ToBe_spec (n : Int32) :
    ∃ a b c d, i32ToBe n = [a, b, c, d] ∧ beNat [a, b, c, d] = vendorNumber n.toInt := by
  obtain ⟨a, b, c, d, h1, h2⟩ := u32FromBe_toBe n.toUInt32
  have h := (C17_u32_write 0 n.toUInt32).2.2.1
  rw [AVP.fromU32, h1] at h
  refine ⟨a, b, c, d, h1, ?_⟩
  rw [h]
  have e : n.toInt = (n.toUInt32.toNat : Int).bmod (2 ^ 32) := BitVec.toInt_eq_toNat_bmod n.toBitVec
  have hlt := n.toUInt32.toNat_lt
  generalize n.toUInt32.toNat = k at *
  unfold vendorNumber
  rw [e, show (4294967296 : Int) = ((2 ^ 32 : Nat) : Int) from rfl, Int.bmod_emod]
  show k = _
  omega

/-- **C33** The bytes of both kinds of vendor-specific messages. -/
theorem C33_message (id : Int32) (t tag : UInt8) (s : String) :
    ((StringVSA.new id t s).message.length = 6 + (textBytes s).length ∧
     beNat ((StringVSA.new id t s).message.take 4) = vendorNumber id.toInt ∧
     (StringVSA.new id t s).message[4]? = some t ∧
     (StringVSA.new id t s).message[5]? = some (UInt8.ofNat (StringVSA.new id t s).len) ∧
     (StringVSA.new id t s).len = (2 + (textBytes s).length) % 256 ∧
     (StringVSA.new id t s).message.drop 6 = textBytes s) ∧
    ((TaggedStringVSA.new id t tag s).message.length = 7 + (textBytes s).length ∧
     beNat ((TaggedStringVSA.new id t tag s).message.take 4) = vendorNumber id.toInt ∧
     (TaggedStringVSA.new id t tag s).message[4]? = some t ∧
     (TaggedStringVSA.new id t tag s).message[5]? = some (UInt8.ofNat (TaggedStringVSA.new id t tag s).len) ∧
     (TaggedStringVSA.new id t tag s).len = (3 + (textBytes s).length) % 256 ∧
     (TaggedStringVSA.new id t tag s).message.drop 6 = tag :: textBytes s) := by
  obtain ⟨a, b, c, d, h, hn⟩ := i32ToBe_spec id
  have e1 : (StringVSA.new id t s).message =
      [a, b, c, d, t, UInt8.ofNat (2 + (textBytes s).length)] ++ textBytes s := by
    simp [StringVSA.message, StringVSA.new, StringVSA.BYTE_SIZE_OFFSET, h, strBytes_eq]
  have e2 : (TaggedStringVSA.new id t tag s).message =
      [a, b, c, d, t, UInt8.ofNat (3 + (textBytes s).length), tag] ++ textBytes s := by
    simp [TaggedStringVSA.message, TaggedStringVSA.new, TaggedStringVSA.BYTE_SIZE_OFFSET, h, strBytes_eq]
  have l1 : (StringVSA.new id t s).len = (2 + (textBytes s).length) % 256 := by
    simp [StringVSA.new, StringVSA.len, StringVSA.BYTE_SIZE_OFFSET, strBytes_eq]
  have l2 : (TaggedStringVSA.new id t tag s).len = (3 + (textBytes s).length) % 256 := by
    simp [TaggedStringVSA.new, TaggedStringVSA.len, TaggedStringVSA.BYTE_SIZE_OFFSET, strBytes_eq]
  have m1 : ∀ k, UInt8.ofNat (k % 256) = UInt8.ofNat k := fun k => by
    apply u8_eq_of_toNat; simp
  rw [e1, e2, l1, l2, m1, m1]
  refine ⟨⟨?_, hn, rfl, rfl, rfl, rfl⟩, ⟨?_, hn, rfl, rfl, rfl, rfl⟩⟩ <;> simp <;> omega

theorem attrsWire_mem {as : List AVP} {w : Bytes} (h : AttrsWire as w) {a : AVP} (ha : a ∈ as) :
    ∃ pre post len, w = pre ++ [a.typ, len] ++ a.value ++ post ∧ len.toNat = a.value.length + 2 := by
  induction h with
  | nil => cases ha
  | cons t l v as w _ hl _ ih =>
    rcases List.mem_cons.1 ha with rfl | ha
    · exact ⟨[], w, l, by simp, hl⟩
    · obtain ⟨pre, post, l', rfl, hl'⟩ := ih ha
      exact ⟨t :: l :: (v ++ pre), post, l', by simp, hl'⟩

/-- **C33** In every packet that encodes, each vendor-specific attribute made by `StringVSA` /
`TaggedStringVSA` is on the wire in full and is read back by the RFC 2865 reader. -/
theorem C33_wire (H : Hash) (ck : Bool) (p : Packet) (bs : Bytes) (hr : Reachable p)
    (he : Packet.encode H ck p = .ok bs) (id : Int32) (t tag : UInt8) (s : String) :
    (∀ m, m = (StringVSA.new id t s).message → (⟨26, m⟩ : AVP) ∈ p.attributes →
      (∃ pre post len, bs = pre ++ [26, len] ++ m ++ post ∧ len.toNat = m.length + 2) ∧
      readVsa m = some (vendorNumber id.toInt, t.toNat, textBytes s)) ∧
    (∀ m, m = (TaggedStringVSA.new id t tag s).message → (⟨26, m⟩ : AVP) ∈ p.attributes →
      (∃ pre post len, bs = pre ++ [26, len] ++ m ++ post ∧ len.toNat = m.length + 2) ∧
      readVsa m = some (vendorNumber id.toInt, t.toNat, tag :: textBytes s)) := by
  obtain ⟨w, hi, lo, hw, _, _, _, rfl⟩ := encode_ok_elim H ck p bs (reachable_auth hr) he
  obtain ⟨a, b, c, d, h, hn⟩ := i32ToBe_spec id
  have onWire : ∀ m, (⟨26, m⟩ : AVP) ∈ p.attributes →
      (∃ pre post len, [p.code.toU8, p.identifier, hi, lo] ++
          authField H p [p.code.toU8, p.identifier, hi, lo] w ++ w = pre ++ [26, len] ++ m ++ post ∧
        len.toNat = m.length + 2) := by
    intro m hm
    obtain ⟨pre, post, len, e, hl⟩ := attrsWire_mem hw hm
    refine ⟨[p.code.toU8, p.identifier, hi, lo] ++
      authField H p [p.code.toU8, p.identifier, hi, lo] w ++ pre, post, len, ?_, hl⟩
    generalize authField H p [p.code.toU8, p.identifier, hi, lo] w = f
    rw [e]
    simp only [List.append_assoc]
  refine ⟨fun m em hm => ⟨onWire m hm, ?_⟩, fun m em hm => ⟨onWire m hm, ?_⟩⟩
  · obtain ⟨_, _, len, _, hl⟩ := onWire m hm
    have := len.toNat_lt
    have hlen : m.length = 6 + (textBytes s).length := em ▸ (C33_message id t tag s).1.1
    have e : m = [a, b, c, d, t, UInt8.ofNat (2 + (textBytes s).length)] ++ textBytes s := by
      rw [em]; simp [StringVSA.message, StringVSA.new, StringVSA.BYTE_SIZE_OFFSET, h, strBytes_eq]
    rw [e, ← hn]
    simp only [List.cons_append, List.nil_append, readVsa]
    rw [if_pos (by rw [UInt8.toNat_ofNat']; omega)]
  · obtain ⟨_, _, len, _, hl⟩ := onWire m hm
    have := len.toNat_lt
    have hlen : m.length = 7 + (textBytes s).length := em ▸ (C33_message id t tag s).2.1
    have e : m = [a, b, c, d, t, UInt8.ofNat (3 + (textBytes s).length)] ++ tag :: textBytes s := by
      rw [em]; simp [TaggedStringVSA.message, TaggedStringVSA.new, TaggedStringVSA.BYTE_SIZE_OFFSET, h, strBytes_eq]
    rw [e, ← hn]
    simp only [List.cons_append, List.nil_append, readVsa]
    rw [if_pos (by rw [UInt8.toNat_ofNat', List.length_cons]; omega)]

/-- **C33** `add_vsa_attribute` with a `StringVSA`, then encode, transport, decode: the last Vendor-Specific
attribute of the received packet reads as what was put in, after the earlier ones. -/
theorem C33_over_the_wire (H : Hash) (ck : Bool) (p : Packet) (bs : Bytes) (id : Int32) (t : UInt8) (s : String)
    (hr : Reachable p) (hsz : wireSize p.attributes + 8 + (textBytes s).length < 65516)
    (he : Packet.encode H ck (addVsaAttribute p (StringVSA.new id t s).message) = .ok bs) :
    ∃ q a, Packet.decode bs p.secret = .ok q ∧ q.lookupAll 26 = p.lookupAll 26 ++ [a] ∧
      readVsa a.value = some (vendorNumber id.toInt, t.toNat, textBytes s) := by
  have hr' : Reachable (addVsaAttribute p (StringVSA.new id t s).message) := .add _ _ hr
  have hl := (C33_message id t 0 s).1.1
  have hw := (C33_wire H ck _ bs hr' he id t 0 s).1 _ rfl (by simp [addVsaAttribute, Packet.add, Attributes.add, AVP.fromBytes, VENDOR_SPECIFIC_TYPE])
  have hd := (C04_encode_decode H ck _ bs hr' (by
    show wireSize (p.attributes ++ [⟨26, (StringVSA.new id t s).message⟩]) < 65516
    simp only [wireSize, List.map_append, List.sum_append, List.map_cons, List.map_nil, List.sum_cons,
      List.sum_nil] at hsz ⊢
    omega) he).1
  refine ⟨_, ⟨26, (StringVSA.new id t s).message⟩, hd, ?_, hw.2⟩
  show (p.add ⟨26, _⟩).lookupAll 26 = _
  rw [lookupAll_add]; simp

/-- The vectors of the repository's tests, vsa.rs:165-175 and 194-205, and an encodable packet. -/
example : (StringVSA.new 4874 65 "bar(1000,5441)").message =
    [0, 0, 19, 10, 65, 16, 98, 97, 114, 40, 49, 48, 48, 48, 44, 53, 52, 52, 49, 41] := by decide +kernel
example : (TaggedStringVSA.new 4874 65 5 "bar(1000,5441)").message =
    [0, 0, 19, 10, 65, 17, 5, 98, 97, 114, 40, 49, 48, 48, 48, 44, 53, 52, 52, 49, 41] := by decide +kernel
example : (match Packet.encode Md5.md5 true (addVsaAttribute (samplePacket .AccessRequest)
      (StringVSA.new (-2) 65 "x").message) with
    | .ok bs => decide (bs.drop 27 = [26, 9, 255, 255, 255, 254, 65, 3, 120])
    | _ => false) = true := by decide +kernel

end Radius

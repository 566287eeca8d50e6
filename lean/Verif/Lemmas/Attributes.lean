import Verif.Lemmas.Basic
import Verif.Model.Attributes
import Verif.Spec.Wire
/-! # Lemmas about `Attributes::decode` and `Attributes::encode` -/
namespace Radius
open Spec

/-- Total description of the decoding loop. -/
theorem decodeLoop_spec (bs : Bytes) (i : Nat) (acc : List AVP) (hi : i ≤ bs.length) :
    match Attributes.decodeLoop bs i acc with
    | .ok r => ∃ l, r = acc ++ l ∧ AttrsWire l (bs.drop i)
    | .err m => AttrsBad m (bs.drop i)
    | .panic => False := by
  generalize hn : bs.length - i = n
  induction n using Nat.strongRecOn generalizing i acc with
  | _ n ih =>
    unfold Attributes.decodeLoop
    by_cases h1 : bs.length > i
    · simp only [h1, ↓reduceDIte, sliceFrom_of_le _ _ hi, Out.bind_ok, List.length_drop]
      by_cases h2 : bs.length - i < 2
      · simp only [h2, ↓reduceIte]
        have hlen : (bs.drop i).length = 1 := by simp; omega
        match hd : bs.drop i, hlen with
        | [t], _ => exact .short t
      · simp only [h2, ↓reduceIte, idx_of_lt bs (i+1) (by omega), idx_of_lt bs i h1, Out.bind_ok]
        have hd : bs.drop i = bs[i] :: bs[i+1]'(by omega) :: bs.drop (i+2) := by
          rw [List.drop_eq_getElem_cons h1, List.drop_eq_getElem_cons (by omega : i+1 < bs.length)]
        have hlt := (bs[i+1]'(by omega)).toNat_lt
        by_cases h3 : (bs[i+1]'(by omega)).toNat > bs.length - i ∨
            ¬ (2 ≤ (bs[i+1]'(by omega)).toNat ∧ (bs[i+1]'(by omega)).toNat ≤ 255)
        · simp only [h3, ↓reduceDIte]
          rw [hd]
          apply AttrsBad.length
          simp only [List.length_drop]; omega
        · simp only [h3, ↓reduceDIte]
          generalize hl : bs[i+1]'(by omega) = l at *
          have hv : ∃ v, (if l.toNat > 2 then slice bs (i+2) (i+l.toNat) else Out.ok [] : Out String Bytes)
              = .ok v ∧ v.length = l.toNat - 2 ∧ bs.drop (i+2) = v ++ bs.drop (i + l.toNat) := by
            by_cases h4 : l.toNat > 2
            · refine ⟨(bs.drop (i+2)).take (l.toNat - 2), ?_, ?_, ?_⟩
              · simp only [h4, ↓reduceIte]
                rw [slice_of_le _ _ _ (by omega) (by omega)]
                congr 2; omega
              · simp; omega
              · have hdd : bs.drop (i + l.toNat) = (bs.drop (i + 2)).drop (l.toNat - 2) := by
                  rw [List.drop_drop]; congr 1; omega
                rw [hdd, List.take_append_drop]
            · refine ⟨[], by simp [h4], by simp; omega, ?_⟩
              simp; congr 1; omega
          obtain ⟨v, hv1, hv2, hv3⟩ := hv
          have hk : (if l.toNat > 2 then do
                let value ← slice bs (i + 2) (i + l.toNat)
                Attributes.decodeLoop bs (i + l.toNat) (acc ++ [{ typ := bs[i], value := value }])
              else Attributes.decodeLoop bs (i + l.toNat) (acc ++ [{ typ := bs[i], value := [] }]))
              = Attributes.decodeLoop bs (i + l.toNat) (acc ++ [{ typ := bs[i], value := v }]) := by
            by_cases h4 : l.toNat > 2
            · simp only [h4, ↓reduceIte] at hv1 ⊢
              simp [hv1]
            · simp only [h4, ↓reduceIte] at hv1 ⊢
              simp only [Out.ok.injEq] at hv1
              rw [hv1]
          rw [hk]
          have := ih (bs.length - (i + l.toNat)) (by omega) (i + l.toNat)
            (acc ++ [{ typ := bs[i], value := v }]) (by omega) rfl
          revert this
          rw [hd, hv3]
          cases Attributes.decodeLoop bs (i + l.toNat) (acc ++ [{ typ := bs[i], value := v }]) with
          | ok r =>
            rintro ⟨l', rfl, hw⟩
            exact ⟨_, by simp, .cons _ _ _ _ _ (by omega) (by omega) hw⟩
          | err m => intro hb; exact .skip _ _ _ _ _ (by omega) (by omega) hb
          | panic => exact id
    · simp only [h1, ↓reduceDIte]
      refine ⟨[], by simp, ?_⟩
      rw [List.drop_of_length_le (by omega)]
      exact .nil

/-- Well-formed bytes have one reading. -/
theorem Spec.AttrsWire.unique {l l' : List AVP} {w : Bytes} (h : AttrsWire l w) (h' : AttrsWire l' w) :
    l = l' := by
  induction h generalizing l' with
  | nil => cases h'; rfl
  | cons t n v attrs w hv hn hw ih =>
    generalize hx : t :: n :: (v ++ w) = x at h'
    cases h' with
    | nil => simp at hx
    | cons t' n' v' attrs' w' hv' hn' hw' =>
      simp only [List.cons.injEq] at hx
      obtain ⟨rfl, rfl, hx⟩ := hx
      obtain ⟨rfl, rfl⟩ := List.append_inj hx (by omega)
      rw [ih hw']

/-- Well-formed bytes are not malformed. -/
theorem Spec.AttrsWire.not_bad {l : List AVP} {m : String} {w : Bytes} (h : AttrsWire l w) :
    ¬ AttrsBad m w := by
  induction h with
  | nil => intro h; cases h
  | cons t n v attrs w hv hn hw ih =>
    intro h
    generalize hx : t :: n :: (v ++ w) = x at h
    cases h with
    | short => simp at hx
    | length t' l' w' hl =>
      simp only [List.cons.injEq] at hx
      obtain ⟨rfl, rfl, rfl⟩ := hx
      simp only [List.length_append] at hl
      omega
    | skip _ t' l' v' w' hv' hl' hb =>
      simp only [List.cons.injEq] at hx
      obtain ⟨rfl, rfl, hx⟩ := hx
      obtain ⟨rfl, rfl⟩ := List.append_inj hx (by omega)
      exact ih hb

/-- The reason of malformedness is unique. -/
theorem Spec.AttrsBad.unique {m m' : String} {w : Bytes} (h : AttrsBad m w) (h' : AttrsBad m' w) :
    m = m' := by
  induction h generalizing m' with
  | short t => cases h'; rfl
  | length t l w hl =>
    generalize hx : t :: l :: w = x at h'
    cases h' with
    | short => simp at hx
    | length => rfl
    | skip _ t' l' v' w' hv' hl' hb =>
      simp only [List.cons.injEq] at hx
      obtain ⟨rfl, rfl, rfl⟩ := hx
      simp only [List.length_append] at hl
      omega
  | skip m t l v w hv hl hb ih =>
    generalize hx : t :: l :: (v ++ w) = x at h'
    cases h' with
    | short => simp at hx
    | length t' l' w' hl' =>
      simp only [List.cons.injEq] at hx
      obtain ⟨rfl, rfl, rfl⟩ := hx
      simp only [List.length_append] at hl'
      omega
    | skip _ t' l' v' w' hv' hl' hb' =>
      simp only [List.cons.injEq] at hx
      obtain ⟨rfl, rfl, hx⟩ := hx
      obtain ⟨rfl, rfl⟩ := List.append_inj hx (by omega)
      exact ih hb'

theorem attributes_decode_ok_iff (w : Bytes) (l : List AVP) :
    Attributes.decode w = .ok l ↔ AttrsWire l w := by
  have h := decodeLoop_spec w 0 [] (Nat.zero_le _)
  unfold Attributes.decode
  revert h
  cases Attributes.decodeLoop w 0 [] with
  | ok r =>
    rintro ⟨l', rfl, hw⟩
    simp only [List.drop_zero] at hw
    constructor
    · intro h; cases h; exact hw
    · intro h; rw [hw.unique h]
  | err m =>
    intro hb
    simp only [List.drop_zero] at hb
    simp only [reduceCtorEq, false_iff]
    exact fun h => h.not_bad hb
  | panic => exact False.elim

theorem attributes_decode_err_iff (w : Bytes) (m : String) :
    Attributes.decode w = .err m ↔ AttrsBad m w := by
  have h := decodeLoop_spec w 0 [] (Nat.zero_le _)
  unfold Attributes.decode
  revert h
  cases Attributes.decodeLoop w 0 [] with
  | ok r =>
    rintro ⟨l', rfl, hw⟩
    simp only [List.drop_zero] at hw
    simp only [reduceCtorEq, false_iff]
    exact hw.not_bad
  | err m' =>
    intro hb
    simp only [List.drop_zero] at hb
    simp only [Out.err.injEq]
    exact ⟨fun h => h ▸ hb, fun h => hb.unique h⟩
  | panic => exact False.elim

theorem attributes_decode_ne_panic (w : Bytes) : Attributes.decode w ≠ .panic := by
  have h := decodeLoop_spec w 0 [] (Nat.zero_le _)
  intro hp
  unfold Attributes.decode at hp
  rw [hp] at h
  exact h

theorem Spec.AttrsWire.length {l : List AVP} {w : Bytes} (h : AttrsWire l w) : w.length = wireSize l := by
  induction h with
  | nil => rfl
  | cons t n v attrs w hv hn hw ih => simp [wireSize] at *; omega

theorem encodeLoop_ok (ck : Bool) (attrs : List AVP) (acc : Bytes)
    (h : ∀ a ∈ attrs, a.value.length ≤ 253) :
    ∃ w, Attributes.encodeLoop ck attrs acc = .ok (acc ++ w) ∧ AttrsWire attrs w := by
  induction attrs generalizing acc with
  | nil => exact ⟨[], by simp [Attributes.encodeLoop], .nil⟩
  | cons a rest ih =>
    have ha := h a (by simp)
    have hl : (UInt8.ofNat a.value.length).toNat = a.value.length := by
      rw [UInt8.toNat_ofNat']; omega
    have hadd : (addU8 ck 2 (UInt8.ofNat a.value.length) : Out String UInt8)
        = .ok (2 + UInt8.ofNat a.value.length) := by
      simp only [addU8, hl]
      rw [if_pos]; show 2 + _ < 256; omega
    obtain ⟨w, hw, hwire⟩ := ih
      (acc ++ [a.typ] ++ [2 + UInt8.ofNat a.value.length] ++ a.value) (fun b hb => h b (by simp [hb]))
    refine ⟨a.typ :: (2 + UInt8.ofNat a.value.length) :: (a.value ++ w), ?_, ?_⟩
    · unfold Attributes.encodeLoop
      rw [if_neg (by omega), hadd]
      simp only [Out.bind_ok, hw]
      simp
    · refine .cons a.typ _ a.value rest w ha ?_ hwire
      rw [UInt8.toNat_add, hl]; show (2 + _) % 256 = _; omega

theorem encodeLoop_err (ck : Bool) (attrs : List AVP) (acc : Bytes)
    (h : ∃ a ∈ attrs, 253 < a.value.length) :
    Attributes.encodeLoop ck attrs acc = .err "attribute is too large" := by
  induction attrs generalizing acc with
  | nil => simp at h
  | cons a rest ih =>
    unfold Attributes.encodeLoop
    by_cases ha : a.value.length > 253
    · simp [ha]
    · have hl : (UInt8.ofNat a.value.length).toNat = a.value.length := by
        rw [UInt8.toNat_ofNat']; omega
      have hadd : (addU8 ck 2 (UInt8.ofNat a.value.length) : Out String UInt8)
          = .ok (2 + UInt8.ofNat a.value.length) := by
        simp only [addU8, hl]
        rw [if_pos]; show 2 + _ < 256; omega
      rw [if_neg ha, hadd]
      simp only [Out.bind_ok]
      apply ih
      obtain ⟨b, hb, hb'⟩ := h
      rcases List.mem_cons.1 hb with rfl | hb
      · exact absurd hb' ha
      · exact ⟨b, hb, hb'⟩

/-- `Attributes::encode` succeeds exactly on representable lists, with the (unique) wire form. -/
theorem attributes_encode_ok (ck : Bool) (attrs : List AVP) (h : ∀ a ∈ attrs, a.value.length ≤ 253) :
    ∃ w, Attributes.encode ck attrs = .ok w ∧ AttrsWire attrs w := by
  simpa [Attributes.encode] using encodeLoop_ok ck attrs [] h

theorem attributes_encode_err (ck : Bool) (attrs : List AVP) (h : ∃ a ∈ attrs, 253 < a.value.length) :
    Attributes.encode ck attrs = .err "attribute is too large" := encodeLoop_err ck attrs [] h

theorem Spec.AttrsWire.small {l : List AVP} {w : Bytes} (h : AttrsWire l w) :
    ∀ a ∈ l, a.value.length ≤ 253 := by
  induction h with
  | nil => simp
  | cons t n v attrs w hv hn hw ih =>
    intro a ha
    rcases List.mem_cons.1 ha with rfl | ha
    · exact hv
    · exact ih a ha

theorem Spec.AttrsWire.functional {l : List AVP} {w w' : Bytes} (h : AttrsWire l w) (h' : AttrsWire l w') :
    w = w' := by
  induction h generalizing w' with
  | nil => cases h'; rfl
  | cons t n v attrs w hv hn hw ih =>
    cases h' with
    | cons _ n' _ _ w' _ hn' hw' =>
      rw [ih hw', show n = n' from UInt8.toNat.inj (by omega)]

end Radius

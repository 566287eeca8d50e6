import Verif.Model.Shipped.Files
/-! # Parsing the shipped dictionaries -/
namespace Radius.Gen
open Shipped

theorem fixedOctets_nd {item ds : Str} (nd : Nat → Bool) (h : fixedOctets (fun _ => false) item = some ds) :
    fixedOctets nd item = some ds := by
  unfold fixedOctets at h ⊢
  cases hb : strEq (item.take 7) c!"octets[" with
  | false => simp only [hb, cond_false] at h; cases h
  | true =>
    simp only [hb, cond_true] at h ⊢
    split at h
    · next d ds' heq =>
      cases hall : (d :: ds').all (fun c => isDigit c || false) with
      | false => simp only [hall, cond_false] at h; cases h
      | true =>
        have : (d :: ds').all (fun c => isDigit c || nd c) = true := by
          rw [List.all_eq_true] at hall ⊢
          intro c hc
          have := hall c hc
          simp only [Bool.or_false] at this
          simp [this]
        simp only [hall, cond_true] at h
        simp only [this, cond_true]
        exact h
    · cases h

theorem readType_nd {item : Str} {e : Option EncryptionType} {r : ValueType × Option Nat} (nd : Nat → Bool)
    (h : readType (fun _ => false) item e = .ok r) : readType nd item e = .ok r := by
  unfold readType at h ⊢
  split at h <;> try exact h
  next heq =>
  cases hf : fixedOctets (fun _ => false) item with
  | none => rw [hf] at h; cases h
  | some ds => rw [hf] at h; rw [fixedOctets_nd nd hf]; exact h

theorem parseLine_nd {d d' : Dict} {line : Str} (nd : Nat → Bool)
    (h : parseLine (fun _ => false) d line = .ok d') : parseLine nd d line = .ok d' := by
  unfold parseLine at h ⊢
  cases hb : lineFilter line with
  | true => simp only [hb, cond_true] at h ⊢; exact h
  | false =>
    simp only [hb, cond_false] at h ⊢
    split at h
    · next kind i1 i2 i3 more heq =>
      cases hk : strEq kind ATTRIBUTE_KIND with
      | false => simp only [hk, cond_false] at h ⊢; exact h
      | true =>
        simp only [hk, cond_true] at h ⊢
        split at h
        · cases ht : readType (fun _ => false) i3 ({} : Options).encryption with
          | ok r => rw [ht] at h; rw [readType_nd nd ht]; exact h
          | err e => rw [ht] at h; cases h
          | panic => rw [ht] at h; cases h
        · next i4 _ =>
          cases ht : readType (fun _ => false) i3
              ((splitOn (fun c => Nat.beq c 44) i4).foldl Options.read {}).encryption with
          | ok r => rw [ht] at h; rw [readType_nd nd ht]; exact h
          | err e => rw [ht] at h; cases h
          | panic => rw [ht] at h; cases h
    · cases h

theorem parseLines_nd (nd : Nat → Bool) {d' : Dict} : ∀ {d : Dict} {ls : List Str},
    parseLines (fun _ => false) d ls = .ok d' → parseLines nd d ls = .ok d'
  | _, [], h => h
  | d, l :: ls, h => by
    unfold parseLines at h ⊢
    cases hl : parseLine (fun _ => false) d l with
    | ok d1 =>
      rw [hl] at h
      rw [parseLine_nd nd hl]
      exact parseLines_nd nd h
    | err e => rw [hl] at h; cases h
    | panic => rw [hl] at h; cases h

theorem parseDict_nd {text : Str} {d : Dict} (nd : Nat → Bool) (h : parseDict (fun _ => false) text = .ok d) :
    parseDict nd text = .ok d := parseLines_nd nd h

set_option maxRecDepth 100000

theorem parse_rfc2865 : parseDict (fun _ => false) rfc2865.file.text = .ok rfc2865.table := by decide +kernel
theorem parse_rfc2866 : parseDict (fun _ => false) rfc2866.file.text = .ok rfc2866.table := by decide +kernel
theorem parse_rfc2867 : parseDict (fun _ => false) rfc2867.file.text = .ok rfc2867.table := by decide +kernel
theorem parse_rfc2868 : parseDict (fun _ => false) rfc2868.file.text = .ok rfc2868.table := by decide +kernel
theorem parse_rfc2869 : parseDict (fun _ => false) rfc2869.file.text = .ok rfc2869.table := by decide +kernel
theorem parse_rfc3162 : parseDict (fun _ => false) rfc3162.file.text = .ok rfc3162.table := by decide +kernel
theorem parse_rfc3576 : parseDict (fun _ => false) rfc3576.file.text = .ok rfc3576.table := by decide +kernel
theorem parse_rfc3580 : parseDict (fun _ => false) rfc3580.file.text = .ok rfc3580.table := by decide +kernel
theorem parse_rfc4072 : parseDict (fun _ => false) rfc4072.file.text = .ok rfc4072.table := by decide +kernel
theorem parse_rfc4372 : parseDict (fun _ => false) rfc4372.file.text = .ok rfc4372.table := by decide +kernel
theorem parse_rfc4603 : parseDict (fun _ => false) rfc4603.file.text = .ok rfc4603.table := by decide +kernel
theorem parse_rfc4675 : parseDict (fun _ => false) rfc4675.file.text = .ok rfc4675.table := by decide +kernel
theorem parse_rfc4818 : parseDict (fun _ => false) rfc4818.file.text = .ok rfc4818.table := by decide +kernel
theorem parse_rfc4849 : parseDict (fun _ => false) rfc4849.file.text = .ok rfc4849.table := by decide +kernel
theorem parse_rfc5090 : parseDict (fun _ => false) rfc5090.file.text = .ok rfc5090.table := by decide +kernel
theorem parse_rfc5176 : parseDict (fun _ => false) rfc5176.file.text = .ok rfc5176.table := by decide +kernel
theorem parse_rfc5607 : parseDict (fun _ => false) rfc5607.file.text = .ok rfc5607.table := by decide +kernel
theorem parse_rfc5904 : parseDict (fun _ => false) rfc5904.file.text = .ok rfc5904.table := by decide +kernel
theorem parse_rfc6519 : parseDict (fun _ => false) rfc6519.file.text = .ok rfc6519.table := by decide +kernel
theorem parse_rfc6572 : parseDict (fun _ => false) rfc6572.file.text = .ok rfc6572.table := by decide +kernel
theorem parse_rfc6677 : parseDict (fun _ => false) rfc6677.file.text = .ok rfc6677.table := by decide +kernel
theorem parse_rfc6911 : parseDict (fun _ => false) rfc6911.file.text = .ok rfc6911.table := by decide +kernel
theorem parse_rfc7055 : parseDict (fun _ => false) rfc7055.file.text = .ok rfc7055.table := by decide +kernel
theorem parse_rfc7155 : parseDict (fun _ => false) rfc7155.file.text = .ok rfc7155.table := by decide +kernel

end Radius.Gen

import Verif.Props.Dictionary
/-! # C63: which line of a dictionary stops the generator, and how -/
namespace Radius.Gen
open Spec

/-- An outcome without a result: an error message, or a panic. -/
def stopped {α : Type} : Option Str → Out Str α
  | some m => .err m
  | none => .panic

theorem bracketed_iff {nd : Nat → Bool} {typ : Str} : Bracketed nd typ ↔ ∃ ds, fixedOctets nd typ = some ds := by
  constructor
  · rintro ⟨ds, h1, h2, h3⟩
    refine ⟨ds, fixedOctets_iff.mpr ⟨h1, h2, fun c hc => ?_⟩⟩
    rcases h3 c hc with h | h
    · rw [isDigit_iff.mpr h]; rfl
    · rw [h, Bool.or_true]
  · rintro ⟨ds, h⟩
    obtain ⟨h1, h2, h3⟩ := fixedOctets_iff.mp h
    refine ⟨ds, h1, h2, fun c hc => ?_⟩
    have := h3 c hc
    rw [Bool.or_eq_true] at this
    exact this.imp isDigit_iff.mp id

theorem typeOf_any {typ : Str} {e : Option EncryptionType} {vt : ValueType} {fx : Option Nat} (h : TypeOf typ e vt fx)
    (e' : Option EncryptionType) : ∃ vt fx, TypeOf typ e' vt fx := by
  cases h with
  | string | userPassword | tunnelPassword =>
    match e' with
    | none => exact ⟨_, _, .string⟩
    | some .UserPassword => exact ⟨_, _, .userPassword⟩
    | some .TunnelPassword => exact ⟨_, _, .tunnelPassword⟩
  | octets => exact ⟨_, _, .octets e'⟩
  | fixed _ ds n h1 h2 => exact ⟨_, _, .fixed e' ds n h1 h2⟩
  | ipaddr => exact ⟨_, _, .ipaddr e'⟩
  | ipv4prefix => exact ⟨_, _, .ipv4prefix e'⟩
  | ipv6addr => exact ⟨_, _, .ipv6addr e'⟩
  | ipv6prefix => exact ⟨_, _, .ipv6prefix e'⟩
  | ifid => exact ⟨_, _, .ifid e'⟩
  | date => exact ⟨_, _, .date e'⟩
  | integer => exact ⟨_, _, .integer e'⟩
  | short => exact ⟨_, _, .short e'⟩
  | vsa => exact ⟨_, _, .vsa e'⟩

/-- The outcome of reading a type. -/
theorem readType_cases {nd : Nat → Bool} (hnd : ∀ c < 128, nd c = false) (typ : Str) (e : Option EncryptionType) :
    (∃ vt fx, readType nd typ e = .ok (vt, fx) ∧ TypeOf typ e vt fx) ∨
    ((∀ e vt fx, ¬ TypeOf typ e vt fx) ∧ ¬ Bracketed nd typ ∧
      readType nd typ e = .err (c!"invalid type has come => " ++ typ)) ∨
    ((∀ e vt fx, ¬ TypeOf typ e vt fx) ∧ Bracketed nd typ ∧ readType nd typ e = .panic) := by
  have no : (∀ vt fx, readType nd typ e ≠ .ok (vt, fx)) → ∀ e vt fx, ¬ TypeOf typ e vt fx := by
    intro h e' vt fx ht
    obtain ⟨vt', fx', ht'⟩ := typeOf_any ht e
    exact h _ _ ((readType_iff hnd).mpr ht')
  cases h : readType nd typ e with
  | ok r => obtain ⟨vt, fx⟩ := r; exact .inl ⟨vt, fx, rfl, (readType_iff hnd).mp h⟩
  | err m =>
    refine .inr (.inl ⟨no (by rw [h]; simp), ?_⟩)
    unfold readType at h
    split at h
    · split at h <;> cases h
    · cases h
    · split at h
      · split at h <;> cases h
      · next hf =>
        refine ⟨fun hb => ?_, ?_⟩
        · obtain ⟨ds, hds⟩ := bracketed_iff.mp hb
          rw [hf] at hds; cases hds
        · cases h; rfl
  | panic =>
    refine .inr (.inr ⟨no (by rw [h]; simp), ?_, rfl⟩)
    unfold readType at h
    split at h
    · split at h <;> cases h
    · cases h
    · split at h
      · next ds hf => exact bracketed_iff.mpr ⟨ds, hf⟩
      · cases h

theorem lineFilter_false {line : Str} (h1 : line ≠ []) (h2 : line.head? ≠ some 35) : lineFilter line = false := by
  cases line with
  | nil => exact absurd rfl h1
  | cons c rest => exact beq_false (fun e => h2 (by rw [e]; rfl))

theorem lineFilter_false_elim {line : Str} (h : lineFilter line = false) : line ≠ [] ∧ line.head? ≠ some 35 := by
  cases line with
  | nil => cases h
  | cons c rest =>
    refine ⟨by simp, fun e => ?_⟩
    rw [Option.some.inj e] at h
    cases h

/-- Reading an attribute line. -/
theorem parseLine_attribute {nd : Nat → Bool} {d : Dict} {line name num typ : Str} {more : List Str}
    (hf : Fields line (c!"ATTRIBUTE" :: name :: num :: typ :: more)) :
    parseLine nd d line = (do
      let (valueType, fixedOctetsLength) ← readType nd typ (optionsIn more).encryption
      let t ← parseUnwrap 255 num
      .ok { d with attributes := d.attributes ++
        [{ name := name, typ := UInt8.ofNat t, valueType, fixedOctetsLength,
           concatOctets := (optionsIn more).concatOctets, hasTag := (optionsIn more).hasTag }] }) := by
  unfold parseLine
  rw [fields_not_filtered (c := 65) (by omega) hf, cond_false, splitWs_iff.mpr hf]
  rfl

/-- Reading a value line. -/
theorem parseLine_value {nd : Nat → Bool} {d : Dict} {line attr name item : Str} {more : List Str}
    (hf : Fields line (c!"VALUE" :: attr :: name :: item :: more)) :
    parseLine nd d line = (do
      let value ← parseUnwrap 65535 (cutComment item)
      .ok { d with values := pushValue attr { name := name, value := UInt16.ofNat value } d.values }) := by
  unfold parseLine
  rw [fields_not_filtered (c := 86) (by omega) hf, cond_false, splitWs_iff.mpr hf]
  rfl

theorem parseUnwrap_panic {max : Nat} {s : Str} (h : ∀ n, ¬ Number max s n) : parseUnwrap max s = .panic := by
  unfold parseUnwrap
  cases hp : parseUnsigned max s with
  | none => rfl
  | some n => exact absurd (parseUnsigned_iff.mp hp) (h n)

/-- A line that stops the parser stops it in the way described. -/
theorem parseLine_stops {nd : Nat → Bool} (hnd : ∀ c < 128, nd c = false) {d : Dict} {line : Str} {o : Option Str}
    (h : Stops nd line o) : parseLine nd d line = stopped o := by
  cases h with
  | fewFields fs h1 h2 hf hl =>
    unfold parseLine
    rw [lineFilter_false h1 h2, cond_false, splitWs_iff.mpr hf]
    match fs, hl with
    | [], _ => rfl
    | [_], _ => rfl
    | [_, _], _ => rfl
    | [_, _, _], _ => rfl
    | _ :: _ :: _ :: _ :: _, hl => simp at hl; omega
  | kind k i1 i2 i3 more h1 h2 hf ha hv =>
    unfold parseLine
    rw [lineFilter_false h1 h2, cond_false, splitWs_iff.mpr hf]
    show (bif strEq k ATTRIBUTE_KIND then _ else bif strEq k VALUE_KIND then _ else _) = _
    rw [show strEq k ATTRIBUTE_KIND = false from strEq_false ha, show strEq k VALUE_KIND = false from strEq_false hv]
    rfl
  | unknownType name num typ more hf ht hb =>
    rw [parseLine_attribute hf]
    rcases readType_cases hnd typ (optionsIn more).encryption with ⟨vt, fx, _, h⟩ | ⟨_, _, h⟩ | ⟨_, h, _⟩
    · exact absurd h (ht _ _ _)
    · rw [h]; rfl
    · exact absurd h hb
  | badLength name num typ more hf ht hb =>
    rw [parseLine_attribute hf]
    rcases readType_cases hnd typ (optionsIn more).encryption with ⟨vt, fx, _, h⟩ | ⟨_, h, _⟩ | ⟨_, _, h⟩
    · exact absurd h (ht _ _ _)
    · exact absurd hb h
    · rw [h]; rfl
  | badNumber name num typ more e vt fx hf ht hn =>
    rw [parseLine_attribute hf]
    obtain ⟨vt', fx', ht'⟩ := typeOf_any ht (optionsIn more).encryption
    rw [(readType_iff hnd).mpr ht', parseUnwrap_panic hn]
    rfl
  | badValue attr name item more hf hn =>
    rw [parseLine_value hf, parseUnwrap_panic]
    · rfl
    · intro n hnum
      obtain ⟨v, hu, hv⟩ := value_iff.mp hnum
      exact hn v n hu hv

/-- Every line is read or stops the parser. -/
theorem reads_or_stops {nd : Nat → Bool} (hnd : ∀ c < 128, nd c = false) (line : Str) :
    (∃ i, Reads line i) ∨ ∃ o, Stops nd line o := by
  cases hb : lineFilter line with
  | true =>
    left
    cases line with
    | nil => exact ⟨_, .blank⟩
    | cons c rest => rw [Nat.eq_of_beq_eq_true hb]; exact ⟨_, .comment rest⟩
  | false =>
    obtain ⟨h1, h2⟩ := lineFilter_false_elim hb
    obtain ⟨fs, hf⟩ := fields_exists line
    by_cases hl : fs.length < 4
    · exact .inr ⟨_, .fewFields line fs h1 h2 hf hl⟩
    · match fs, hf, hl with
      | [], _, hl => exact absurd (by simp) hl
      | [_], _, hl => exact absurd (by simp) hl
      | [_, _], _, hl => exact absurd (by simp) hl
      | [_, _, _], _, hl => exact absurd (by simp) hl
      | k :: i1 :: i2 :: i3 :: more, hf, _ =>
        by_cases ha : k = c!"ATTRIBUTE"
        · subst ha
          have ho := (optionsOf_iff (more := more)).mpr ⟨rfl, rfl, rfl⟩
          rcases readType_cases hnd i3 (optionsIn more).encryption with ⟨vt, fx, _, h⟩ | ⟨h, h', _⟩ | ⟨h, h', _⟩
          · by_cases hn : ∃ n, Number 255 i2 n
            · obtain ⟨n, hn⟩ := hn
              exact .inl ⟨_, .attribute line i1 i2 i3 more n _ _ _ vt fx hf hn ho h⟩
            · exact .inr ⟨_, .badNumber line i1 i2 i3 more _ vt fx hf h (fun n hn' => hn ⟨n, hn'⟩)⟩
          · exact .inr ⟨_, .unknownType line i1 i2 i3 more hf h h'⟩
          · exact .inr ⟨_, .badLength line i1 i2 i3 more hf h h'⟩
        · by_cases hv : k = c!"VALUE"
          · subst hv
            by_cases hn : ∃ v n, Uncommented i3 v ∧ Number 65535 v n
            · obtain ⟨v, n, hu, hn⟩ := hn
              exact .inl ⟨_, .value line i1 i2 i3 v more n hf hu hn⟩
            · exact .inr ⟨_, .badValue line i1 i2 i3 more hf (fun v n hu hn' => hn ⟨v, n, hu, hn'⟩)⟩
          · exact .inr ⟨_, .kind line k i1 i2 i3 more h1 h2 hf ha hv⟩

end Radius.Gen

namespace Radius
open Gen Gen.Spec

/-- **C63** The first line that is not blank, a comment, an attribute or a value decides the outcome: whatever comes after it,
the parser returns the error message for that line, or panics. -/
theorem C63_first_bad_line (nd : Nat → Bool) (hnd : ∀ c < 128, nd c = false) (text : Str) (good rest : List Str)
    (is : List (Option Item)) (bad : Str) (o : Option Str) (hl : LinesOf text (good ++ bad :: rest))
    (hg : ReadsAll good is) (hb : Stops nd bad o) : parseDict nd text = stopped o := by
  unfold parseDict
  rw [readLines_iff.mpr hl]
  clear hl
  generalize ({} : Dict) = d
  induction hg generalizing d with
  | nil =>
    show (parseLine nd d bad >>= fun d => parseLines nd d rest) = _
    rw [parseLine_stops hnd hb]
    cases o <;> rfl
  | @cons l ls i is hi _ ih =>
    show (parseLine nd d l >>= fun d => parseLines nd d (ls ++ bad :: rest)) = _
    rw [(parseLine_iff hnd).mpr ⟨i, hi, rfl⟩]
    exact ih _

/-- **C63** There is no other outcome: a text is read, or it has a first line that stops the parser. -/
theorem C63_read_or_stopped (nd : Nat → Bool) (hnd : ∀ c < 128, nd c = false) (text : Str) :
    (∃ d, parseDict nd text = .ok d) ∨
    ∃ good is bad rest o, LinesOf text (good ++ bad :: rest) ∧ ReadsAll good is ∧ Stops nd bad o ∧
      parseDict nd text = stopped o := by
  obtain ⟨ls, hl⟩ := linesOf_exists text
  have key : (∃ is, ReadsAll ls is) ∨ ∃ good is bad rest o, ls = good ++ bad :: rest ∧ ReadsAll good is ∧ Stops nd bad o := by
    clear hl
    induction ls with
    | nil => exact .inl ⟨[], .nil⟩
    | cons l ls ih =>
      rcases reads_or_stops hnd l with ⟨i, hi⟩ | ⟨o, ho⟩
      · rcases ih with ⟨is, his⟩ | ⟨good, is, bad, rest, o, rfl, hg, ho⟩
        · exact .inl ⟨i :: is, .cons hi his⟩
        · exact .inr ⟨l :: good, i :: is, bad, rest, o, rfl, .cons hi hg, ho⟩
      · exact .inr ⟨[], [], l, ls, o, rfl, .nil, ho⟩
  rcases key with ⟨is, his⟩ | ⟨good, is, bad, rest, o, rfl, hg, ho⟩
  · exact .inl ⟨_, (C49_parse nd hnd text _).mpr ⟨ls, is, hl, his, contents_foldl contents_nil is⟩⟩
  · exact .inr ⟨good, is, bad, rest, o, hl, hg, ho, C63_first_bad_line nd hnd text good rest is bad o hl hg ho⟩

/-- Each way of stopping is possible. -/
example : Stops (fun _ => false) c!"ATTRIBUTE a 1" (some c!"the number of items is lacked in a line") :=
  .fewFields _ _ (by decide) (by decide) (splitWs_iff.mp rfl) (by decide)
example : Stops (fun _ => false) c!"VENDOR a 1 b" (some c!"unexpected kind has come => VENDOR") :=
  .kind _ _ _ _ _ _ (by decide) (by decide) (splitWs_iff.mp rfl) (by decide) (by decide)
example : Stops (fun _ => false) c!"VALUE A B 65536" none :=
  .badValue _ c!"A" c!"B" c!"65536" [] (splitWs_iff.mp rfl) (by
    intro v n hu hn
    have := (parseUnsigned_iff (s := cutComment c!"65536")).mpr (value_iff.mpr ⟨v, hu, hn⟩)
    rw [show parseUnsigned 65535 (cutComment c!"65536") = none by decide +kernel] at this
    cases this)
example : Stops (fun _ => false) c!"ATTRIBUTE A 256 string" none :=
  .badNumber _ c!"A" c!"256" c!"string" [] none _ _ (splitWs_iff.mp rfl) .string (by
    intro n hn
    have := parseUnsigned_iff.mpr hn
    rw [show parseUnsigned 255 c!"256" = none by decide +kernel] at this
    cases this)
example : Stops (fun _ => false) c!"ATTRIBUTE A 1 strange" (some c!"invalid type has come => strange") ∧
    Stops (fun _ => false) c!"ATTRIBUTE A 1 octets[18446744073709551616]" none := by
  have h1 := readType_cases (nd := fun _ => false) (fun _ _ => rfl) c!"strange" none
  rw [show readType (fun _ => false) c!"strange" none = .err c!"invalid type has come => strange" by decide +kernel] at h1
  have h2 := readType_cases (nd := fun _ => false) (fun _ _ => rfl) c!"octets[18446744073709551616]" none
  rw [show readType (fun _ => false) c!"octets[18446744073709551616]" none = .panic by decide +kernel] at h2
  constructor
  · rcases h1 with ⟨_, _, h, _⟩ | ⟨h, h', _⟩ | ⟨_, _, h⟩
    · cases h
    · exact .unknownType _ c!"A" c!"1" c!"strange" [] (splitWs_iff.mp rfl) h h'
    · cases h
  · rcases h2 with ⟨_, _, h, _⟩ | ⟨_, _, h⟩ | ⟨h, h', _⟩
    · cases h
    · cases h
    · exact .badLength _ c!"A" c!"1" c!"octets[18446744073709551616]" [] (splitWs_iff.mp rfl) h h'

end Radius

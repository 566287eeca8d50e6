import Verif.Props.Generation
import Verif.Model.Shipped.Files
/-! # C65, C66: examples, the shipped dictionaries, and dictionaries whose modules do not compile -/
namespace Radius
open Gen Gen.Spec Gen.Shipped

/-! ## The shipped dictionaries -/

/-- A shipped dictionary as a source. -/
noncomputable def sourceOf (e : Entry) : Source := ⟨e.rfcName, e.file.text, e.table⟩

noncomputable def definesB (t : Dict) (name : Str) : Bool := t.attributes.any (fun a => strEq a.name name)

/-- The last dictionary that defines the attribute and those before it, latest first. -/
noncomputable def findDef (name : Str) : List Entry → Option (Entry × List Entry)
  | [] => none
  | y :: before => bif definesB y.table name then some (y, before) else findDef name before

noncomputable def withTypeB (rev : List Entry) (x : Entry) : Bool :=
  x.table.attributes.all (fun a => match a.valueType with
    | .Integer => !(hasValues x.table.values a.name) || !(rev.any (fun y => definesB y.table a.name))
    | _ => true) &&
  x.table.values.all (fun e => match findDef e.1 rev with
    | none => true
    | some (y, before) => hasValues y.table.values e.1 && !(before.any (fun z => definesB z.table e.1)))

noncomputable def allWithTypeB (rev : List Entry) : List Entry → Bool
  | [] => true
  | x :: xs => withTypeB rev x && allWithTypeB (x :: rev) xs

theorem definesB_eq (x : Entry) (name : Str) : definesB x.table name = (sourceOf x).defines name := by
  show x.table.attributes.any _ = x.table.attributes.any _
  congr 1
  funext a
  by_cases h : a.name = name
  · simp [h, strEq_refl]
  · simp [h, strEq_false h]

theorem origin_none_iff (rev : List Entry) (name : Str) :
    origin (rev.reverse.map sourceOf) name = none ↔ rev.any (fun y => definesB y.table name) = false := by
  simp only [origin, Option.map_eq_none_iff, List.find?_eq_none, List.mem_reverse, List.mem_map, List.any_eq_false]
  constructor
  · intro h y hy
    rw [definesB_eq]
    exact h _ ⟨y, hy, rfl⟩
  · rintro h _ ⟨y, hy, rfl⟩
    rw [← definesB_eq]
    exact h y hy

theorem findDef_origin (rev : List Entry) (name m : Str) (h : origin (rev.reverse.map sourceOf) name = some m) :
    ∃ y before after, findDef name rev = some (y, before) ∧ rev = after ++ y :: before ∧ y.rfcName = m := by
  induction rev with
  | nil => cases h
  | cons x rev ih =>
    unfold origin at h ih
    rw [List.map_reverse, List.reverse_reverse] at h ih
    simp only [List.map_cons, List.find?_cons, ← definesB_eq] at h
    unfold findDef
    cases hd : definesB x.table name with
    | true =>
      rw [hd] at h
      exact ⟨x, rev, [], rfl, rfl, by simpa [sourceOf] using h⟩
    | false =>
      rw [hd] at h
      obtain ⟨y, before, after, h1, rfl, h3⟩ := ih h
      exact ⟨y, before, x :: after, h1, rfl, h3⟩

theorem hasValues_mem (m : ValueMap) (name : Str) : hasValues m name = true ↔ ∃ e ∈ m, e.1 = name := by
  unfold hasValues
  rw [List.any_eq_true]
  exact ⟨fun ⟨e, he, h⟩ => ⟨e, he, strEq_iff.mp h⟩, fun ⟨e, he, h⟩ => ⟨e, he, strEq_iff.mpr h⟩⟩

theorem withType_of_check (rev : List Entry) (x : Entry) (h : withTypeB rev x = true) :
    (∀ a ∈ (sourceOf x).dict.attributes, a.valueType = .Integer → (∃ e ∈ (sourceOf x).dict.values, e.1 = a.name) →
      origin (rev.reverse.map sourceOf) a.name = none) ∧
    (∀ e ∈ (sourceOf x).dict.values, ∀ m, origin (rev.reverse.map sourceOf) e.1 = some m →
      ∃ before y after, rev.reverse.map sourceOf = before ++ y :: after ∧ y.rfcName = m ∧
        (∃ e' ∈ y.dict.values, e'.1 = e.1) ∧ origin before e.1 = none) := by
  unfold withTypeB at h
  rw [Bool.and_eq_true, List.all_eq_true, List.all_eq_true] at h
  obtain ⟨h1, h2⟩ := h
  constructor
  · intro a ha ht hv
    have := h1 a ha
    rw [ht] at this
    simp only [(hasValues_mem x.table.values a.name).2 hv, Bool.not_true, Bool.false_or, Bool.not_eq_true'] at this
    exact (origin_none_iff rev a.name).2 this
  · intro e he m hm
    obtain ⟨y, before, after, hf, rfl, hy⟩ := findDef_origin rev e.1 m hm
    have := h2 e he
    rw [hf] at this
    simp only [Bool.and_eq_true, Bool.not_eq_true'] at this
    refine ⟨before.reverse.map sourceOf, sourceOf y, after.reverse.map sourceOf, by simp, hy,
      (hasValues_mem y.table.values e.1).1 this.1, (origin_none_iff before e.1).2 this.2⟩

theorem allWithType_of_check (rev xs : List Entry) (h : allWithTypeB rev xs = true) (pre : List Entry) (x : Entry)
    (post : List Entry) (hx : xs = pre ++ x :: post) : withTypeB (pre.reverse ++ rev) x = true := by
  induction pre generalizing rev xs with
  | nil => subst hx; rw [List.nil_append, allWithTypeB, Bool.and_eq_true] at h; exact h.1
  | cons y pre ih =>
    subst hx
    rw [List.cons_append, allWithTypeB, Bool.and_eq_true] at h
    have := ih (y :: rev) _ h.2 rfl
    simpa using this

/-- **C66** In the shipped dictionaries values come with their types, so that every type named in the modules made from
them is declared. -/
theorem C66_shipped : ValuesWithType (entries.map sourceOf) := by
  have hc : allWithTypeB [] entries = true := by decide +kernel
  intro pre x post h
  obtain ⟨pre', rest, he, rfl, hr⟩ := List.map_eq_append_iff.1 h
  obtain ⟨x', post', rfl, rfl, rfl⟩ := List.map_eq_cons_iff.1 hr
  have := withType_of_check _ x' (allWithType_of_check [] entries hc pre' x' post' he)
  simpa using this

/-! ## Two dictionaries -/

/-- A path in the current directory. -/
def named (n : Str) : FilePath := [.normal n]

/-- A world with two files. -/
def twoFiles (n1 t1 n2 t2 : Str) : World where
  text p := if p = named n1 then some t1 else if p = named n2 then some t2 else none
  create _ := true

/-- Non-vacuity of the success case: the second dictionary adds a value to an attribute of the first. -/
example : (Gen.main (fun _ => false)
    (twoFiles c!"d.a" c!"ATTRIBUTE\tA 1 integer\nVALUE A X 1\n" c!"d.b" c!"VALUE A Y 2\n")
    ⟨false, some c!"out", [named c!"d.b", named c!"d.a"]⟩).panicked = false := by
  rw [C65_success _ _ _ rfl (by simp)]
  intro p hp
  simp only [List.mem_cons, List.not_mem_nil, or_false] at hp
  rcases hp with rfl | rfl
  · refine ⟨⟨c!"b", c!"VALUE A Y 2\n", ⟨[], [(c!"A", [⟨c!"Y", 2⟩])]⟩⟩, ⟨rfl, ⟨[], c!"d", rfl, by simp, by decide⟩, rfl, ?_⟩, ?_⟩
    · decide +kernel
    · intro b hb; cases hb
  · refine ⟨⟨c!"a", c!"ATTRIBUTE\tA 1 integer\nVALUE A X 1\n",
      ⟨[⟨c!"A", 1, .Integer, none, false, false⟩], [(c!"A", [⟨c!"X", 1⟩])]⟩⟩, ⟨rfl, ⟨[], c!"d", rfl, by simp, by decide⟩, rfl, ?_⟩, ?_⟩
    · decide +kernel
    · intro b hb
      simp only [List.mem_cons, List.not_mem_nil, or_false] at hb
      subst hb
      simp [Supported]

/-- Whether the piece occurs in the text. -/
def occursB (p : Str) : Str → Bool
  | [] => p.isEmpty
  | c :: cs => p.isPrefixOf (c :: cs) || occursB p cs

theorem occursB_iff (p t : Str) : occursB p t = true ↔ Occurs p t := by
  induction t with
  | nil =>
    simp only [occursB, List.isEmpty_iff, Occurs]
    constructor
    · rintro rfl; exact ⟨[], [], rfl⟩
    · rintro ⟨a, b, h⟩
      have := congrArg List.length h
      simp at this
      exact List.length_eq_zero_iff.1 (by omega)
  | cons c cs ih =>
    simp only [occursB, Bool.or_eq_true, List.isPrefixOf_iff_prefix, ih]
    constructor
    · rintro (⟨b, h⟩ | ⟨a, b, h⟩)
      · exact ⟨[], b, h.symm⟩
      · exact ⟨c :: a, b, by rw [h]; rfl⟩
    · rintro ⟨a, b, h⟩
      cases a with
      | nil => exact .inl ⟨b, h.symm⟩
      | cons x a =>
        simp only [List.cons_append, List.cons.injEq] at h
        exact .inr ⟨a, b, h.2⟩

/-- A run on two files in order is the loop. -/
theorem main_two (t1 t2 : Str) :
    Gen.main (fun _ => false) (twoFiles c!"d.a" t1 c!"d.b" t2) ⟨false, some c!"out", [named c!"d.a", named c!"d.b"]⟩ =
      mainLoop (fun _ => false) (twoFiles c!"d.a" t1 c!"d.b" t2) {} [named c!"d.a", named c!"d.b"] := by
  unfold Gen.main
  rw [List.mergeSort_of_pairwise (by decide +kernel)]
  rfl

/-- Whether a run has written exactly two files and the check holds of their texts. -/
def twoTexts (r : Written) (f : Str → Str → Bool) : Bool :=
  match r with
  | ⟨[(n1, t1), (n2, t2)], false⟩ => n1 == c!"a.rs" && n2 == c!"b.rs" && f t1 t2
  | _ => false

theorem twoTexts_iff {r : Written} {f : Str → Str → Bool} (h : twoTexts r f = true) :
    ∃ t1 t2, r = ⟨[(c!"a.rs", t1), (c!"b.rs", t2)], false⟩ ∧ f t1 t2 = true := by
  unfold twoTexts at h
  split at h
  · simp only [Bool.and_eq_true, beq_iff_eq] at h
    obtain ⟨⟨rfl, rfl⟩, h⟩ := h
    exact ⟨_, _, rfl, h⟩
  · cases h

/-- **C66** The condition is needed. An attribute without values, to which a later dictionary gives one: the later module
names a type in the earlier module, which declares none. The generator does not complain; the module does not compile. -/
theorem C66_values_added_later : ∃ t1 t2,
    Gen.main (fun _ => false) (twoFiles c!"d.a" c!"ATTRIBUTE A 1 integer\n" c!"d.b" c!"VALUE A X 1\n")
      ⟨false, some c!"out", [named c!"d.a", named c!"d.b"]⟩ = ⟨[(c!"a.rs", t1), (c!"b.rs", t2)], false⟩ ∧
    Occurs c!"pub const A_X: a::A = 1;" t2 ∧ ¬ Occurs c!"pub type" t1 ∧ ¬ Occurs c!"pub type" t2 := by
  rw [main_two]
  have h : twoTexts (mainLoop (fun _ => false) (twoFiles c!"d.a" c!"ATTRIBUTE A 1 integer\n" c!"d.b" c!"VALUE A X 1\n") {}
      [named c!"d.a", named c!"d.b"]) (fun t1 t2 => occursB c!"pub const A_X: a::A = 1;" t2 && !occursB c!"pub type" t1 &&
        !occursB c!"pub type" t2) = true := by decide +kernel
  obtain ⟨t1, t2, h1, h2⟩ := twoTexts_iff h
  simp only [Bool.and_eq_true, Bool.not_eq_true', ← Bool.not_eq_true, occursB_iff] at h2
  exact ⟨t1, t2, h1, h2.1.1, h2.1.2, h2.2⟩

/-- **C66** An attribute defined again, now with values: the accessors of the later module name a type that is not
declared there. -/
theorem C66_attribute_redefined : ∃ t1 t2,
    Gen.main (fun _ => false) (twoFiles c!"d.a" c!"ATTRIBUTE A 1 integer\n" c!"d.b" c!"ATTRIBUTE A 1 integer\nVALUE A X 1\n")
      ⟨false, some c!"out", [named c!"d.a", named c!"d.b"]⟩ = ⟨[(c!"a.rs", t1), (c!"b.rs", t2)], false⟩ ∧
    Occurs c!"pub fn add_a(packet: &mut Packet, value: A) {" t2 ∧ ¬ Occurs c!"pub type" t2 := by
  rw [main_two]
  have h : twoTexts (mainLoop (fun _ => false) (twoFiles c!"d.a" c!"ATTRIBUTE A 1 integer\n" c!"d.b"
      c!"ATTRIBUTE A 1 integer\nVALUE A X 1\n") {} [named c!"d.a", named c!"d.b"])
        (fun _ t2 => occursB c!"pub fn add_a(packet: &mut Packet, value: A) {" t2 && !occursB c!"pub type" t2) = true := by
    decide +kernel
  obtain ⟨t1, t2, h1, h2⟩ := twoTexts_iff h
  simp only [Bool.and_eq_true, Bool.not_eq_true', ← Bool.not_eq_true, occursB_iff] at h2
  exact ⟨t1, t2, h1, h2⟩

/-- Non-vacuity of the failing case: the first module is complete, the second stops at the tagged date, with the constant
of that attribute as the last one. -/
example : (match Gen.main (fun _ => false) (twoFiles c!"d.a" c!"ATTRIBUTE A 1 integer\n" c!"d.b"
        c!"ATTRIBUTE B 2 string\nATTRIBUTE C 3 date has_tag\nATTRIBUTE D 4 string\n")
      ⟨false, some c!"out", [named c!"d.a", named c!"d.b"]⟩ with
    | ⟨[(n1, t1), (n2, t2)], true⟩ => n1 == c!"a.rs" && n2 == c!"b.rs" && occursB c!"pub fn lookup_all_a" t1 &&
        occursB c!"pub fn lookup_all_b" t2 && occursB c!"pub fn delete_c" t2 && !occursB c!"_c(packet: &mut Packet, " t2 &&
        !occursB c!"delete_d" t2
    | _ => false) = true := by
  rw [main_two]
  decide +kernel

end Radius

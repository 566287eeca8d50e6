import Verif.Spec.Generation
import Verif.Props.Dictionary
import Mathlib.Data.List.Lex
/-! # C65: what the generator leaves on disk, for every set of dictionaries -/
namespace Radius
open Gen Gen.Spec

theorem extension_iff (p : FilePath) (ext : Str) : extension p = some ext ↔ HasExtension p ext := by
  have key : ∀ n before after : Str, rsplitDot n = some (before, after) ↔ n = before ++ 46 :: after ∧ 46 ∉ after := by
    intro n before after
    unfold rsplitDot
    constructor
    · intro h
      have hcat := List.takeWhile_append_dropWhile (p := fun c : Nat => c != 46) (l := n.reverse)
      have hall : ∀ c ∈ n.reverse.takeWhile (fun c : Nat => c != 46), c ≠ 46 := by
        intro c hc
        have := List.all_takeWhile (p := fun c : Nat => c != 46) (l := n.reverse)
        rw [List.all_eq_true] at this
        simpa using this c hc
      generalize n.reverse.takeWhile (fun c : Nat => c != 46) = tw at *
      cases hdw : n.reverse.dropWhile (fun c : Nat => c != 46) with
      | nil => rw [hdw] at h; cases h
      | cons d dw =>
        have hd : d = 46 := by
          have := List.head_dropWhile_not (fun c : Nat => c != 46) (l := n.reverse) (by rw [hdw]; simp)
          simpa [hdw] using this
        rw [hdw] at h hcat
        simp only [Option.some.injEq, Prod.mk.injEq] at h
        obtain ⟨rfl, rfl⟩ := h
        subst hd
        constructor
        · have := congrArg List.reverse hcat
          simpa using this.symm
        · intro hm
          exact hall 46 (by simpa using hm) rfl
    · rintro ⟨rfl, hn⟩
      have e : (before ++ 46 :: after).reverse = after.reverse ++ 46 :: before.reverse := by simp
      have ht : ∀ c ∈ after.reverse, (c != 46) = true := by
        intro c hc
        simp only [bne_iff_ne, ne_eq]
        rintro rfl
        exact hn (by simpa using hc)
      rw [e, List.dropWhile_append_of_pos ht, List.takeWhile_append_of_pos ht]
      simp
  unfold extension fileName
  constructor
  · intro h
    cases hl : p.getLast? with
    | none => rw [hl] at h; cases h
    | some c =>
      rw [hl] at h
      obtain ⟨dir, rfl⟩ := List.getLast?_eq_some_iff.1 hl
      cases c with
      | normal n =>
        simp only at h
        cases hr : rsplitDot n with
        | none => rw [hr] at h; cases h
        | some ba =>
          obtain ⟨before, after⟩ := ba
          rw [hr] at h
          simp only at h
          split at h
          · cases h
          · next hb =>
            cases h
            obtain ⟨rfl, hn⟩ := (key _ _ _).1 hr
            exact ⟨dir, before, rfl, hb, hn⟩
      | _ => cases h
  · rintro ⟨dir, before, rfl, hb, hn⟩
    simp only [List.getLast?_append, List.getLast?_singleton, Option.some_or]
    rw [(key _ before ext).2 ⟨rfl, hn⟩]
    simp [hb]

set_option maxRecDepth 20000 in
theorem header_text (names : List Str) (rfc : Str) (ls : List Str) :
    generateHeader names rfc ls = headerText rfc ls ++ names.flatMap (fun n => c!"use crate::core::" ++ n ++ c!";\n") := by
  have hd : ∀ ls, docLines ls = List.intercalate c!"\n" (ls.map (fun l => c!"//! " ++ l)) := by
    intro ls
    induction ls with
    | nil => rfl
    | cons l ls ih =>
      cases ls with
      | nil => simp [docLines, List.intercalate]
      | cons m ms =>
        rw [docLines, ih]
        · simp [List.intercalate]
        · simp
  unfold generateHeader headerText
  rw [← hd]
  congr 1
  simp only [List.append_assoc]
  rfl

theorem constant_text (t : Str) (o : Option Str) (v : RadiusValue) : valueCode t o v = constantText t o v := by
  unfold valueCode constantText
  cases o <;> simp only [List.append_assoc] <;> rfl

theorem values_text (attr : Str) (vs : List RadiusValue) (o : Option Str) :
    generateValuesForAttributeCode attr vs o = valuesText attr vs o := by
  unfold generateValuesForAttributeCode valuesText
  simp only [show valueCode (toPascalCase attr) o = constantText (toPascalCase attr) o from funext (constant_text _ o)]
  cases o with
  | some m => rfl
  | none =>
    have e : ∀ t : Str, format [(c!"type_name", t), (c!"RADIUS_VALUE_TYPE", RADIUS_VALUE_TYPE)]
        c!"\npub type {type_name} = {RADIUS_VALUE_TYPE};\n" .text = c!"\npub type " ++ t ++ c!" = u32;\n" := by
      intro t
      simp only [List.append_assoc]
      rfl
    simp only [e]

set_option maxRecDepth 20000 in
theorem common_text (a : RadiusAttribute) :
    generateCommonAttributeCode (toSnakeCase a.name) (toScreamingSnakeCase a.name ++ c!"_TYPE") (digits a.typ.toNat) =
      commonText a := by
  have e : ∀ m t v : Str, generateCommonAttributeCode m t v = c!"\npub const " ++ (t ++ (c!": AVPType = " ++ (v ++
      (c!";\n/// Delete all of `" ++ (m ++ (c!"` values from a packet.\npub fn delete_" ++ (m ++
        (c!"(packet: &mut Packet) {\n    packet.delete(" ++ (t ++ c!");\n}\n"))))))))) := fun _ _ _ => rfl
  rw [e]
  unfold commonText
  simp only [List.append_assoc]
  rfl

theorem writeAttributes_cases (values : ValueMap) (as : List RadiusAttribute) :
    ((∀ a ∈ as, Supported a) ∧ ∃ codes, CodesOf values as codes ∧ writeAttributes values as = (codes.flatten, true)) ∨
    (∃ good bad more codes, as = good ++ bad :: more ∧ (∀ a ∈ good, Supported a) ∧ ¬ Supported bad ∧
      CodesOf values good codes ∧ writeAttributes values as = (codes.flatten ++ commonText bad, false)) := by
  induction as with
  | nil => exact .inl ⟨fun _ h => (by cases h), [], .nil, rfl⟩
  | cons a as ih =>
    rcases dispatch_family a (hasValues values a.name) with ⟨hs, k, hk, _⟩ | ⟨hs, hk⟩
    · have hc : generateAttributeCode a values = .ok (commonText a ++ accessorCode a.name (toSnakeCase a.name)
          (toScreamingSnakeCase a.name ++ c!"_TYPE") k) := by
        unfold generateAttributeCode
        simp only [hk, common_text]
      have hw : writeAttributes values (a :: as) = (commonText a ++ accessorCode a.name (toSnakeCase a.name)
          (toScreamingSnakeCase a.name ++ c!"_TYPE") k ++ (writeAttributes values as).1, (writeAttributes values as).2) := by
        conv => lhs; unfold writeAttributes
        simp only [hk, common_text]
      rcases ih with ⟨hall, codes, hcs, he⟩ | ⟨good, bad, more, codes, rfl, hg, hb, hcs, he⟩
      · refine .inl ⟨?_, _ :: codes, .cons hc hcs, ?_⟩
        · intro b hb
          rcases List.mem_cons.1 hb with rfl | hb
          · exact hs
          · exact hall b hb
        · rw [hw, he]; simp
      · refine .inr ⟨a :: good, bad, more, _ :: codes, rfl, ?_, hb, .cons hc hcs, ?_⟩
        · intro b hb
          rcases List.mem_cons.1 hb with rfl | hb
          · exact hs
          · exact hg b hb
        · rw [hw, he]; simp
    · refine .inr ⟨[], a, as, [], rfl, fun _ h => (by cases h), hs, .nil, ?_⟩
      conv => lhs; unfold writeAttributes
      simp only [hk, common_text]
      rfl

/-- The state of the loop after some dictionaries. -/
structure After (s : MainState) (earlier : List Source) : Prop where
  names : s.rfcNames = earlier.map (fun x => x.rfcName)
  origins : ∀ name, s.names.get name = origin earlier name

theorem After.start : After {} [] := ⟨rfl, fun _ => rfl⟩

theorem get_append_const (m rest : NameMap) (name v : Str) (h : ∀ e ∈ m, e.2 = v) :
    NameMap.get name (m ++ rest) = if ∃ e ∈ m, e.1 = name then some v else NameMap.get name rest := by
  induction m with
  | nil => simp
  | cons e m ih =>
    obtain ⟨k, w⟩ := e
    have hw : w = v := h (k, w) (by simp)
    show (bif strEq k name then some w else NameMap.get name (m ++ rest)) = _
    rw [ih (fun e he => h e (by simp [he]))]
    by_cases hk : k = name
    · subst hk; simp [strEq_refl, hw]
    · rw [strEq_false hk]
      have : (∃ e, e ∈ (k, w) :: m ∧ e.1 = name) ↔ ∃ e, e ∈ m ∧ e.1 = name :=
        ⟨fun ⟨e, he, hn⟩ => (List.mem_cons.1 he).elim (fun h => absurd (by rw [h] at hn; exact hn) hk) (fun h => ⟨e, h, hn⟩),
          fun ⟨e, he, hn⟩ => ⟨e, List.mem_cons_of_mem _ he, hn⟩⟩
      by_cases hm : ∃ e, e ∈ m ∧ e.1 = name
      · rw [if_pos (this.2 hm), cond_false, if_pos hm]
      · rw [if_neg (fun h => hm (this.1 h)), cond_false, if_neg hm]

theorem After.next {s : MainState} {earlier : List Source} (h : After s earlier) (x : Source) :
    After { rfcNames := s.rfcNames ++ [x.rfcName],
            names := (x.dict.attributes.map (fun a => (a.name, x.rfcName))).reverse ++ s.names } (earlier ++ [x]) := by
  refine ⟨by simp [h.names], fun name => ?_⟩
  rw [get_append_const _ _ _ x.rfcName (by simp), h.origins]
  unfold origin
  simp only [List.reverse_append, List.reverse_cons, List.reverse_nil, List.nil_append, List.singleton_append,
    List.find?_cons]
  have : (∃ e ∈ (x.dict.attributes.map (fun a => (a.name, x.rfcName))).reverse, e.1 = name) ↔ x.defines name = true := by
    simp only [Source.defines, List.mem_reverse, List.mem_map, List.any_eq_true, decide_eq_true_eq]
    exact ⟨fun ⟨e, ⟨a, ha, he⟩, hn⟩ => ⟨a, ha, by rw [← hn, ← he]⟩, fun ⟨a, ha, hn⟩ => ⟨_, ⟨a, ha, rfl⟩, hn⟩⟩
  by_cases hd : x.defines name = true
  · rw [if_pos (this.2 hd), hd]; rfl
  · rw [if_neg (fun h => hd (this.1 h)), Bool.eq_false_iff.2 hd]

theorem values_code {s : MainState} {earlier : List Source} (h : After s earlier) (m : ValueMap) :
    generateValuesCode m s.names = m.flatMap (fun e => valuesText e.1 e.2 (origin earlier e.1)) := by
  unfold generateValuesCode
  congr 1
  funext e
  rw [values_text, h.origins]

theorem header_after {s : MainState} {earlier : List Source} (h : After s earlier) (rfc : Str) (ls : List Str) :
    generateHeader s.rfcNames rfc ls = headerText rfc ls ++ earlier.flatMap useText := by
  rw [header_text, h.names, List.flatMap_map]
  rfl

/-- What the loop does, from any point on. -/
theorem mainLoop_cases (nd : Nat → Bool) (w : World) (ps : List FilePath) (s : MainState) (earlier : List Source)
    (h : After s earlier) :
    (∃ xs files, Sources nd w ps xs ∧ (∀ x ∈ xs, ∀ a ∈ x.dict.attributes, Supported a) ∧ Modules earlier xs files ∧
      mainLoop nd w s ps = ⟨files, false⟩) ∨
    (∃ done p rest xs files, ps = done ++ p :: rest ∧ Sources nd w done xs ∧
      (∀ x ∈ xs, ∀ a ∈ x.dict.attributes, Supported a) ∧ Modules earlier xs files ∧
      (((∀ x, ¬ Source.At nd w p x) ∧ mainLoop nd w s ps = ⟨files, true⟩) ∨
       ∃ x out, Source.At nd w p x ∧ PartialText (earlier ++ xs) x out ∧
         mainLoop nd w s ps = ⟨files ++ [(x.rfcName ++ c!".rs", out)], true⟩)) := by
  induction ps generalizing s earlier with
  | nil => exact .inl ⟨[], [], .nil, fun _ h => (by cases h), .nil _, rfl⟩
  | cons p ps ih =>
    by_cases hx : ∃ x, Source.At nd w p x
    · obtain ⟨x, hx⟩ := hx
      have hext := (extension_iff p x.rfcName).2 hx.extension
      have hls : LinesOf x.text (readLines x.text) := readLines_iff.mp rfl
      rcases writeAttributes_cases x.dict.values x.dict.attributes with
        ⟨hall, codes, hcs, he⟩ | ⟨good, bad, more, codes, hsplit, hg, hb, hcs, he⟩
      · have hm : ModuleText earlier x (generateHeader s.rfcNames x.rfcName (readLines x.text) ++ codes.flatten ++
            generateValuesCode x.dict.values s.names) :=
          ⟨_, codes, hls, hcs, by rw [header_after h, values_code h]⟩
        have hnext := h.next x
        generalize hs' : MainState.mk (s.rfcNames ++ [x.rfcName])
          ((x.dict.attributes.map (fun a => (a.name, x.rfcName))).reverse ++ s.names) = s' at hnext
        have hstep : mainLoop nd w s (p :: ps) = ⟨(x.rfcName ++ c!".rs",
            generateHeader s.rfcNames x.rfcName (readLines x.text) ++ codes.flatten ++
              generateValuesCode x.dict.values s.names) :: (mainLoop nd w s' ps).files, (mainLoop nd w s' ps).panicked⟩ := by
          conv => lhs; unfold mainLoop
          simp only [hx.text, hx.dict, hext, hx.create, he, hs']
        rcases ih _ _ hnext with ⟨xs, files, hxs, hs, hms, hl⟩ |
          ⟨done, q, rest, xs, files, rfl, hxs, hs, hms, hl⟩
        · refine .inl ⟨x :: xs, _ :: files, .cons hx hxs, ?_, .cons _ _ _ _ _ hm hms, ?_⟩
          · intro y hy
            rcases List.mem_cons.1 hy with rfl | hy
            · exact hall
            · exact hs y hy
          · rw [hstep, hl]
        · refine .inr ⟨p :: done, q, rest, x :: xs, _ :: files, rfl, .cons hx hxs, ?_, .cons _ _ _ _ _ hm hms, ?_⟩
          · intro y hy
            rcases List.mem_cons.1 hy with rfl | hy
            · exact hall
            · exact hs y hy
          · rcases hl with ⟨hn, hl⟩ | ⟨y, out, hy, hp, hl⟩
            · exact .inl ⟨hn, by rw [hstep, hl]⟩
            · refine .inr ⟨y, out, hy, ?_, ?_⟩
              · rw [show earlier ++ x :: xs = earlier ++ [x] ++ xs by simp]; exact hp
              · rw [hstep, hl]; rfl
      · refine .inr ⟨[], p, ps, [], [], rfl, .nil, fun _ h => (by cases h), .nil _, .inr ⟨x,
          generateHeader s.rfcNames x.rfcName (readLines x.text) ++ (codes.flatten ++ commonText bad), hx, ?_, ?_⟩⟩
        · refine ⟨_, good, bad, more, codes, hls, hsplit, hg, hb, hcs, ?_⟩
          rw [header_after h]; simp
        · conv => lhs; unfold mainLoop
          simp only [hx.text, hx.dict, hext, hx.create, he]
          rfl
    · refine .inr ⟨[], p, ps, [], [], rfl, .nil, fun _ h => (by cases h), .nil _, .inl ⟨fun x h => hx ⟨x, h⟩, ?_⟩⟩
      unfold mainLoop
      cases ht : w.text p with
      | none => rfl
      | some text =>
        simp only
        cases hd : parseDict nd text with
        | err e => rfl
        | panic => rfl
        | ok d =>
          simp only
          cases he : extension p with
          | none => rfl
          | some rfc =>
            simp only
            cases hc : w.create (rfc ++ c!".rs") with
            | false => rfl
            | true => exact absurd ⟨⟨rfc, text, d⟩, ht, (extension_iff p rfc).1 he, hc, hd⟩ hx

theorem strLe_iff (a b : Str) : strLe a b = true ↔ ¬ b < a := by
  induction a generalizing b with
  | nil => simp [strLe]
  | cons x a ih =>
    cases b with
    | nil => simp [strLe]
    | cons y b =>
      rw [strLe, List.cons_lt_cons_iff]
      by_cases h1 : x < y
      · simp only [h1, if_true, true_iff]; omega
      · by_cases h2 : y < x
        · simp [h2, h1]
        · have : y = x := by omega
          subst this
          simp [ih]

theorem componentLe_iff (a b : Component) : a.le b = true ↔ ¬ placeOf b < placeOf a := by
  have hc : ∀ (x y : Nat) (s t : List Nat), x ≠ y → (¬ y :: s < x :: t ↔ x < y) := by
    intro x y s t h; rw [List.cons_lt_cons_iff]; omega
  have h3 : ∀ (x y : Nat), x ≠ y → (Nat.ble x y = true ↔ x < y) := by
    intro x y h; rw [Nat.ble_eq]; omega
  cases a <;> cases b <;> first
    | simp [Component.le, Component.rank, placeOf, strLe_iff, List.cons_lt_cons_iff]
    | (simp [Component.le, Component.rank, placeOf, strLe_iff, List.cons_lt_cons_iff] <;> decide)

theorem placeOf_inj {a b : Component} (h : placeOf a = placeOf b) : a = b := by
  cases a <;> cases b <;> simp [placeOf] at h ⊢ <;> exact h

theorem pathLe_iff (p q : FilePath) : pathLe p q = true ↔ ¬ q.map placeOf < p.map placeOf := by
  induction p generalizing q with
  | nil => simp [pathLe]
  | cons a p ih =>
    cases q with
    | nil => simp [pathLe]
    | cons b q =>
      simp only [pathLe, List.map_cons]
      rw [List.cons_lt_cons_iff]
      by_cases h : a = b
      · subst h; simp [ih]
      · have hp : placeOf b ≠ placeOf a := fun e => h (placeOf_inj e.symm)
        rw [if_neg h, componentLe_iff]
        simp [hp]

theorem sorted_unique {ps qs : List FilePath} (h : ps.Perm qs) : ps.mergeSort pathLe = qs.mergeSort pathLe := by
  have htrans : ∀ a b c : FilePath, pathLe a b = true → pathLe b c = true → pathLe a c = true := by
    intro a b c
    simp only [pathLe_iff, not_lt]
    exact le_trans
  have htotal : ∀ a b : FilePath, (pathLe a b || pathLe b a) = true := by
    intro a b
    simp only [Bool.or_eq_true, pathLe_iff, not_lt]
    exact le_total _ _
  refine List.Perm.eq_of_pairwise (le := fun a b => pathLe a b = true) ?_ (List.pairwise_mergeSort htrans htotal ps)
    (List.pairwise_mergeSort htrans htotal qs)
    ((List.mergeSort_perm ps pathLe).trans (h.trans (List.mergeSort_perm qs pathLe).symm))
  intro a b _ _ h1 h2
  rw [pathLe_iff, not_lt] at h1 h2
  have := le_antisymm h1 h2
  exact (List.map_injective_iff.2 (fun _ _ => placeOf_inj)) this

theorem sort_inOrder (ps : List FilePath) : (ps.mergeSort pathLe).Perm ps ∧ InOrder (ps.mergeSort pathLe) := by
  refine ⟨List.mergeSort_perm ps pathLe, ?_⟩
  have := List.pairwise_mergeSort (le := pathLe) (fun a b c => by simp only [pathLe_iff, not_lt]; exact le_trans)
    (fun a b => by simp only [Bool.or_eq_true, pathLe_iff, not_lt]; exact le_total _ _) ps
  exact this.imp (fun h => (pathLe_iff _ _).1 h)

/-- **C65** What a run leaves behind. Without help flag, with an output directory and existing files: the files are taken
in the order of their paths. Either all of them are dictionaries with supported attributes, and there is one module for
each, with the text given by `ModuleText`. Or there is a first one that is not, and the program panics; the modules of
those before it are complete, that of the bad one is missing if the file could not be read as a dictionary, and is cut
short at the first unsupported attribute otherwise; those after it are not written. -/
theorem C65_written (nd : Nat → Bool) (w : World) (a : Args) (hh : a.help = false) (ho : a.outDir ≠ none)
    (hex : ∀ p ∈ a.free, w.text p ≠ none) :
    ∃ ps, ps.Perm a.free ∧ InOrder ps ∧
    ((∃ xs files, Sources nd w ps xs ∧ (∀ x ∈ xs, ∀ a ∈ x.dict.attributes, Supported a) ∧ Modules [] xs files ∧
      Gen.main nd w a = ⟨files, false⟩) ∨
    (∃ done p rest xs files, ps = done ++ p :: rest ∧ Sources nd w done xs ∧
      (∀ x ∈ xs, ∀ a ∈ x.dict.attributes, Supported a) ∧ Modules [] xs files ∧
      (((∀ x, ¬ Source.At nd w p x) ∧ Gen.main nd w a = ⟨files, true⟩) ∨
       ∃ x out, Source.At nd w p x ∧ PartialText xs x out ∧
         Gen.main nd w a = ⟨files ++ [(x.rfcName ++ c!".rs", out)], true⟩))) := by
  obtain ⟨h1, h2⟩ := sort_inOrder a.free
  refine ⟨_, h1, h2, ?_⟩
  have hm : Gen.main nd w a = mainLoop nd w {} (a.free.mergeSort pathLe) := by
    unfold Gen.main
    rw [hh]
    cases hd : a.outDir with
    | none => exact absurd hd ho
    | some o =>
      have : a.free.all (fun p => (w.text p).isSome) = true := by
        rw [List.all_eq_true]
        intro p hp
        have := hex p hp
        cases ht : w.text p with
        | none => exact absurd ht this
        | some _ => rfl
      simp [this]
  rw [hm]
  exact mainLoop_cases nd w (a.free.mergeSort pathLe) {} [] After.start

/-- **C65** Nothing is written with the help flag, without an output directory, or if one of the files does not exist. -/
theorem C65_refused (nd : Nat → Bool) (w : World) (a : Args) :
    (a.help = true → Gen.main nd w a = ⟨[], false⟩) ∧
    (a.help = false → (a.outDir = none ∨ ∃ p ∈ a.free, w.text p = none) → Gen.main nd w a = ⟨[], true⟩) := by
  constructor
  · intro h; simp [Gen.main, h]
  · intro h hor
    unfold Gen.main
    rw [h]
    cases hd : a.outDir with
    | none => rfl
    | some o =>
      rcases hor with h' | ⟨p, hp, ht⟩
      · rw [hd] at h'; cases h'
      · have : a.free.all (fun p => (w.text p).isSome) = false := by
          rw [List.all_eq_false]
          exact ⟨p, hp, by simp [ht]⟩
        simp [this]

/-- **C65** The order of the files on the command line does not matter. -/
theorem C65_order (nd : Nat → Bool) (w : World) (a b : Args) (hh : a.help = b.help) (ho : a.outDir = b.outDir)
    (hp : a.free.Perm b.free) : Gen.main nd w a = Gen.main nd w b := by
  unfold Gen.main
  rw [hh, ho, sorted_unique hp]
  have : a.free.all (fun p => (w.text p).isSome) = b.free.all (fun p => (w.text p).isSome) := by
    rw [Bool.eq_iff_iff, List.all_eq_true, List.all_eq_true]
    exact ⟨fun h p hq => h p (hp.mem_iff.2 hq), fun h p hq => h p (hp.mem_iff.1 hq)⟩
  rw [this]

theorem sources_mem {nd : Nat → Bool} {w : World} {ps : List FilePath} {xs : List Source} (h : Sources nd w ps xs) :
    (∀ p ∈ ps, ∃ x ∈ xs, Source.At nd w p x) := by
  induction h with
  | nil => intro p hp; cases hp
  | cons hx _ ih =>
    intro q hq
    rcases List.mem_cons.1 hq with rfl | hq
    · exact ⟨_, by simp, hx⟩
    · obtain ⟨y, hy, h⟩ := ih q hq
      exact ⟨y, by simp [hy], h⟩

theorem source_unique {nd : Nat → Bool} {w : World} {p : FilePath} {x y : Source} (hx : Source.At nd w p x)
    (hy : Source.At nd w p y) : x = y := by
  have h1 := hx.text.symm.trans hy.text
  have h2 := ((extension_iff p _).2 hx.extension).symm.trans ((extension_iff p _).2 hy.extension)
  have h3 := hx.dict
  obtain ⟨xr, xt, xd⟩ := x
  obtain ⟨yr, yt, yd⟩ := y
  simp only [Option.some.injEq] at h1 h2
  subst h1 h2
  have := h3.symm.trans hy.dict
  simp only [Out.ok.injEq] at this
  rw [this]

/-- **C65** The program succeeds exactly if every file is a readable dictionary with supported attributes only, whose
module can be created. -/
theorem C65_success (nd : Nat → Bool) (w : World) (a : Args) (hh : a.help = false) (ho : a.outDir ≠ none) :
    (Gen.main nd w a).panicked = false ↔
      ∀ p ∈ a.free, ∃ x, Source.At nd w p x ∧ ∀ b ∈ x.dict.attributes, Supported b := by
  by_cases hex : ∀ p ∈ a.free, w.text p ≠ none
  · obtain ⟨ps, hperm, _, h⟩ := C65_written nd w a hh ho hex
    rcases h with ⟨xs, files, hxs, hs, _, hm⟩ | ⟨done, p, rest, xs, files, rfl, _, _, _, hm⟩
    · rw [hm]
      refine ⟨fun _ p hp => ?_, fun _ => rfl⟩
      obtain ⟨x, hx, hat⟩ := sources_mem hxs p (hperm.mem_iff.2 hp)
      exact ⟨x, hat, hs x hx⟩
    · have hp : p ∈ a.free := hperm.mem_iff.1 (by simp)
      constructor
      · intro hf
        rcases hm with ⟨_, hm⟩ | ⟨x, out, _, _, hm⟩ <;> rw [hm] at hf <;> cases hf
      · intro hall
        obtain ⟨y, hy, hsup⟩ := hall p hp
        rcases hm with ⟨hn, _⟩ | ⟨x, out, hx, hpt, _⟩
        · exact absurd hy (hn y)
        · obtain rfl := source_unique hx hy
          obtain ⟨ls, good, bad, more, codes, _, hsplit, _, hb, _, _⟩ := hpt
          exact absurd (hsup bad (by rw [hsplit]; simp)) hb
  · simp only [not_forall, not_not] at hex
    obtain ⟨p, hp, ht⟩ := hex
    rw [(C65_refused nd w a).2 hh (.inr ⟨p, hp, ht⟩)]
    constructor
    · intro h; cases h
    · intro hall
      obtain ⟨x, hx, _⟩ := hall p hp
      rw [hx.text] at ht; cases ht

/-- The piece occurs in the text. -/
def Occurs (piece text : Str) : Prop := ∃ pre post, text = pre ++ piece ++ post

theorem Occurs.append_left {p t : Str} (h : Occurs p t) (u : Str) : Occurs p (u ++ t) := by
  obtain ⟨a, b, rfl⟩ := h; exact ⟨u ++ a, b, by simp⟩

theorem Occurs.append_right {p t : Str} (h : Occurs p t) (u : Str) : Occurs p (t ++ u) := by
  obtain ⟨a, b, rfl⟩ := h; exact ⟨a, b ++ u, by simp⟩

theorem Occurs.refl (p : Str) : Occurs p p := ⟨[], [], by simp⟩

theorem Occurs.flatMap {α : Type} {p : Str} {f : α → Str} {l : List α} {x : α} (hx : x ∈ l) (h : Occurs p (f x)) :
    Occurs p (l.flatMap f) := by
  obtain ⟨a, b, rfl⟩ := List.append_of_mem hx
  rw [List.flatMap_append, List.flatMap_cons]
  exact ((h.append_right _).append_left _)

/-- The declaration of a type. -/
def declaration (t : Str) : Str := c!"\npub type " ++ t ++ c!" = u32;\n"

/-- Every attribute with named values is defined only where its type is declared: an integer attribute with values is not
defined by an earlier dictionary, and values for an attribute of an earlier dictionary extend values given there, in a
dictionary that was the first to define it. -/
def ValuesWithType (xs : List Source) : Prop := ∀ pre x post, xs = pre ++ x :: post →
  (∀ a ∈ x.dict.attributes, a.valueType = .Integer → (∃ e ∈ x.dict.values, e.1 = a.name) → origin pre a.name = none) ∧
  (∀ e ∈ x.dict.values, ∀ m, origin pre e.1 = some m → ∃ before y after, pre = before ++ y :: after ∧ y.rfcName = m ∧
    (∃ e' ∈ y.dict.values, e'.1 = e.1) ∧ origin before e.1 = none)

theorem modules_split {earlier pre : List Source} {x : Source} {post : List Source} {files : List (Str × Str)}
    (h : Modules earlier (pre ++ x :: post) files) :
    ∃ out, (x.rfcName ++ c!".rs", out) ∈ files ∧ ModuleText (earlier ++ pre) x out := by
  induction pre generalizing earlier files with
  | nil =>
    cases h with
    | cons _ _ _ out files hm hms => exact ⟨out, by simp, by simpa using hm⟩
  | cons y pre ih =>
    cases h with
    | cons _ _ _ out files hm hms =>
      obtain ⟨o, h1, h2⟩ := ih hms
      exact ⟨o, by simp [h1], by simpa using h2⟩

theorem declared {earlier : List Source} {x : Source} {out : Str} (h : ModuleText earlier x out) {name : Str}
    (hv : ∃ e ∈ x.dict.values, e.1 = name) (ho : origin earlier name = none) :
    Occurs (declaration (toPascalCase name)) out := by
  obtain ⟨ls, codes, _, _, rfl⟩ := h
  obtain ⟨e, he, rfl⟩ := hv
  refine Occurs.append_left (Occurs.flatMap he ?_) _
  rw [ho]
  unfold valuesText declaration
  exact ((Occurs.refl _).append_right _).append_right _

theorem codes_mem {values : ValueMap} {as : List RadiusAttribute} {codes : List Str} (h : CodesOf values as codes)
    {a : RadiusAttribute} (ha : a ∈ as) : ∃ c ∈ codes, generateAttributeCode a values = .ok c := by
  induction h with
  | nil => cases ha
  | cons hc _ ih =>
    rcases List.mem_cons.1 ha with rfl | ha
    · exact ⟨_, by simp, hc⟩
    · obtain ⟨c, h1, h2⟩ := ih ha
      exact ⟨c, by simp [h1], h2⟩

/-- The parameter of the generated `add_*` function for an integer attribute with named values. -/
def valueParameter (a : RadiusAttribute) : Str :=
  c!"pub fn add_" ++ toSnakeCase a.name ++
    (if a.hasTag then c!"(packet: &mut Packet, tag: Option<&Tag>, value: " else c!"(packet: &mut Packet, value: ") ++
    toPascalCase a.name ++ c!") {\n"

set_option maxRecDepth 20000 in
theorem value_parameter {values : ValueMap} {a : RadiusAttribute} {c : Str} (hc : generateAttributeCode a values = .ok c)
    (ht : a.valueType = .Integer) (hv : ∃ e ∈ values, e.1 = a.name) : Occurs (valueParameter a) c := by
  have hh : hasValues values a.name = true := by
    obtain ⟨e, he, hn⟩ := hv
    unfold hasValues
    rw [List.any_eq_true]
    exact ⟨e, he, strEq_iff.mpr hn⟩
  unfold generateAttributeCode at hc
  rw [hh] at hc
  unfold dispatch at hc
  rw [ht] at hc
  unfold valueParameter
  cases htag : a.hasTag with
  | true =>
    simp only [htag] at hc
    cases hc
    refine Occurs.append_left ?_ _
    have e : ∀ m t v : Str, ∃ post, generateTaggedValueDefinedIntegerAttributeCode m t v = c!"/// Add `" ++ (m ++
        (c!"` tagged value-defined integer value to a packet.\n" ++ (c!"pub fn add_" ++ (m ++
          (c!"(packet: &mut Packet, tag: Option<&Tag>, value: " ++ (v ++ (c!") {\n" ++ post))))))) :=
      fun _ _ _ => ⟨_, rfl⟩
    obtain ⟨post, e⟩ := e (toSnakeCase a.name) (toScreamingSnakeCase a.name ++ c!"_TYPE") (toPascalCase a.name)
    exact ⟨c!"/// Add `" ++ (toSnakeCase a.name ++ c!"` tagged value-defined integer value to a packet.\n"), post, by
      show generateTaggedValueDefinedIntegerAttributeCode _ _ _ = _
      rw [e]; simp only [List.append_assoc, if_true]⟩
  | false =>
    simp only [htag] at hc
    cases hc
    refine Occurs.append_left ?_ _
    have e : ∀ m t v : Str, ∃ post, generateValueDefinedIntegerAttributeCode m t v = c!"/// Add `" ++ (m ++
        (c!"` value-defined integer value to a packet.\n" ++ (c!"pub fn add_" ++ (m ++
          (c!"(packet: &mut Packet, value: " ++ (v ++ (c!") {\n" ++ post))))))) :=
      fun _ _ _ => ⟨_, rfl⟩
    obtain ⟨post, e⟩ := e (toSnakeCase a.name) (toScreamingSnakeCase a.name ++ c!"_TYPE") (toPascalCase a.name)
    exact ⟨c!"/// Add `" ++ (toSnakeCase a.name ++ c!"` value-defined integer value to a packet.\n"), post, by
      show generateValueDefinedIntegerAttributeCode _ _ _ = _
      rw [e]; simp [List.append_assoc]⟩

/-- **C66** If values come with their types, every type named in a generated module is declared: the types in the
signatures of accessors and of constants without a module in the module itself; those with a module in that module,
which is imported. -/
theorem C66_types_declared (xs : List Source) (files : List (Str × Str)) (hm : Modules [] xs files)
    (hx : ValuesWithType xs) (pre : List Source) (x : Source) (post : List Source) (hs : xs = pre ++ x :: post) :
    ∃ out, (x.rfcName ++ c!".rs", out) ∈ files ∧
      (∀ a ∈ x.dict.attributes, a.valueType = .Integer → (∃ e ∈ x.dict.values, e.1 = a.name) →
        Occurs (valueParameter a) out ∧ Occurs (declaration (toPascalCase a.name)) out) ∧
      (∀ e ∈ x.dict.values, ∀ v ∈ e.2,
        (Occurs (constantText (toPascalCase e.1) none v) out ∧ Occurs (declaration (toPascalCase e.1)) out) ∨
        ∃ m out', Occurs (constantText (toPascalCase e.1) (some m) v) out ∧
          Occurs (c!"use crate::core::" ++ m ++ c!";\n") out ∧ (m ++ c!".rs", out') ∈ files ∧
          Occurs (declaration (toPascalCase e.1)) out') := by
  subst hs
  obtain ⟨out, hf, hmt⟩ := modules_split hm
  rw [List.nil_append] at hmt
  obtain ⟨h1, h2⟩ := hx pre x post rfl
  have hconst : ∀ e ∈ x.dict.values, ∀ v ∈ e.2, Occurs (constantText (toPascalCase e.1) (origin pre e.1) v) out := by
    intro e he v hv
    obtain ⟨ls, codes, _, _, rfl⟩ := hmt
    refine Occurs.append_left (Occurs.flatMap he ?_) _
    exact (Occurs.append_left (Occurs.flatMap hv (Occurs.refl _)) _).append_right _
  refine ⟨out, hf, fun a ha ht hv => ⟨?_, declared hmt hv (h1 a ha ht hv)⟩, fun e he v hv => ?_⟩
  · obtain ⟨ls, codes, _, hcs, rfl⟩ := hmt
    obtain ⟨c, hc, hgc⟩ := codes_mem hcs ha
    refine Occurs.append_right (Occurs.append_left ?_ _) _
    rw [← List.flatMap_id]
    exact Occurs.flatMap hc (value_parameter hgc ht hv)
  · have hc := hconst e he v hv
    cases ho : origin pre e.1 with
    | none => rw [ho] at hc; exact .inl ⟨hc, declared hmt ⟨e, he, rfl⟩ ho⟩
    | some m =>
      rw [ho] at hc
      obtain ⟨before, y, after, rfl, rfl, hval, hor⟩ := h2 e he m ho
      have hm' : Modules [] (before ++ y :: (after ++ x :: post)) files := by simpa using hm
      obtain ⟨out', hf', hmt'⟩ := modules_split hm'
      refine .inr ⟨y.rfcName, out', hc, ?_, hf', declared (by simpa using hmt') hval hor⟩
      obtain ⟨ls, codes, _, _, rfl⟩ := hmt
      refine Occurs.append_right (Occurs.append_right (Occurs.append_left ?_ _) _) _
      exact Occurs.flatMap (f := useText) (x := y) (by simp) (Occurs.refl _)

end Radius

import Verif.Props.GenerationShipped
import Verif.Props.Shipped
import Mathlib.Data.List.Nodup
/-! # C67: running the generator on the shipped dictionaries -/
namespace Radius
open Gen Gen.Spec Gen.Shipped

theorem writeAttributes_ok {values : ValueMap} {as : List RadiusAttribute} {code : Str}
    (h : generateAttributesCode values as = .ok code) : writeAttributes values as = (code, true) := by
  induction as generalizing code with
  | nil => cases h; rfl
  | cons a as ih =>
    unfold generateAttributesCode at h
    unfold writeAttributes
    cases hc : generateAttributeCode a values with
    | err e => rw [hc] at h; cases h
    | panic => rw [hc] at h; cases h
    | ok c =>
      rw [hc] at h
      cases hm : generateAttributesCode values as with
      | err e => rw [hm] at h; cases h
      | panic => rw [hm] at h; cases h
      | ok more =>
        rw [hm] at h
        cases h
        unfold generateAttributeCode at hc
        simp only at hc ⊢
        cases hd : dispatch a (hasValues values a.name) with
        | err e => rw [hd] at hc; cases hc
        | panic => rw [hd] at hc; cases hc
        | ok kind =>
          rw [hd] at hc
          cases hc
          simp only [ih hm]

/-- The loop of `main` on files that are all generated. -/
theorem mainLoop_ok (nd : Nat → Bool) (w : World) (fs : List (FilePath × DictFile)) (s : MainState) (texts : List Str)
    (hw : ∀ f ∈ fs, w.text f.1 = some f.2.text ∧ extension f.1 = some f.2.rfcName ∧ w.create (f.2.rfcName ++ c!".rs") = true)
    (hg : generateFiles nd s (fs.map (fun f => f.2)) = .ok texts) :
    mainLoop nd w s (fs.map (fun f => f.1)) = ⟨(fs.map (fun f => f.2.rfcName ++ c!".rs")).zip texts, false⟩ ∧
    texts.length = fs.length := by
  induction fs generalizing s texts with
  | nil => cases hg; exact ⟨rfl, rfl⟩
  | cons f fs ih =>
    obtain ⟨h1, h2, h3⟩ := hw f (by simp)
    simp only [List.map_cons, generateFiles, generateFile] at hg ⊢
    cases hp : parseDict nd f.2.text with
    | err e => rw [hp] at hg; cases hg
    | panic => rw [hp] at hg; cases hg
    | ok d =>
      rw [hp] at hg
      simp only at hg
      cases hc : generateAttributesCode d.values d.attributes with
      | err e => rw [hc] at hg; cases hg
      | panic => rw [hc] at hg; cases hg
      | ok code =>
        rw [hc] at hg
        simp only at hg
        generalize hs' : MainState.mk (s.rfcNames ++ [f.2.rfcName])
          ((d.attributes.map (fun a => (a.name, f.2.rfcName))).reverse ++ s.names) = s' at hg
        cases hr : generateFiles nd s' (fs.map (fun f => f.2)) with
        | err e => rw [hr] at hg; cases hg
        | panic => rw [hr] at hg; cases hg
        | ok rest =>
          rw [hr] at hg
          cases hg
          obtain ⟨i1, i2⟩ := ih s' rest (fun g hg => hw g (List.mem_cons_of_mem _ hg)) hr
          refine ⟨?_, by simp [i2]⟩
          unfold mainLoop
          simp only [h1, hp, h2, h3, writeAttributes_ok hc, hs', i1, List.zip_cons_cons]

/-- The path of a shipped dictionary in a directory — dicts/. -/
noncomputable def dictPath (dir : FilePath) (e : Entry) : FilePath := dir ++ [.normal (c!"dictionary." ++ e.rfcName)]

theorem pathLe_dir (dir p q : FilePath) : pathLe (dir ++ p) (dir ++ q) = pathLe p q := by
  induction dir with
  | nil => rfl
  | cons c dir ih => simp [pathLe, ih]

theorem dictPath_extension (dir : FilePath) (e : Entry) (he : e ∈ entries) : extension (dictPath dir e) = some e.rfcName := by
  rw [extension_iff]
  have hd : (entries.all (fun e => e.rfcName.all (fun c => c != 46))) = true := by decide +kernel
  rw [List.all_eq_true] at hd
  have := hd e he
  rw [List.all_eq_true] at this
  refine ⟨dir, c!"dictionary", rfl, by simp, fun h => ?_⟩
  have := this _ h
  revert this; decide

/-- The shipped dictionaries are listed in the order of their paths. -/
theorem entries_sorted (dir : FilePath) : (entries.map (dictPath dir)).mergeSort pathLe = entries.map (dictPath dir) := by
  apply List.mergeSort_of_pairwise
  rw [List.pairwise_map]
  have h : (entries.map (fun e => e.rfcName)).Pairwise (fun a b => strLe (c!"dictionary." ++ a) (c!"dictionary." ++ b) = true) := by
    decide +kernel
  rw [List.pairwise_map] at h
  refine h.imp (fun {a b} hab => ?_)
  unfold dictPath
  rw [pathLe_dir]
  simp only [pathLe]
  split
  · rfl
  · exact hab

/-- **C67** Running the generator on the shipped dictionaries, in any directory, given in any order, with an output directory
in which files can be created, ends without a panic and writes for each dictionary, in the order of their names, one module
with exactly the tokens of the shipped one. -/
theorem C67_shipped (nd : Nat → Bool) (w : World) (dir : FilePath) (a : Args)
    (hh : a.help = false) (ho : a.outDir ≠ none) (hp : a.free.Perm (entries.map (dictPath dir)))
    (ht : ∀ e ∈ entries, w.text (dictPath dir e) = some (unlines e.dict)) (hc : ∀ name, w.create name = true) :
    ∃ texts, Gen.main nd w a = ⟨(entries.map (fun e => e.rfcName ++ c!".rs")).zip texts, false⟩ ∧
      texts.map significant = entries.map (fun e => significant (unlines e.module)) := by
  obtain ⟨texts, hg, hs⟩ := C50_modules nd
  refine ⟨texts, ?_, hs⟩
  have hl := (mainLoop_ok nd w (entries.map (fun e => (dictPath dir e, e.file))) {} texts (by
    intro f hf
    obtain ⟨e, he, rfl⟩ := List.mem_map.1 hf
    exact ⟨ht e he, dictPath_extension dir e he, hc _⟩) (by rw [List.map_map]; exact hg)).1
  unfold Gen.main
  rw [hh, sorted_unique hp, entries_sorted]
  rw [List.map_map, List.map_map] at hl
  cases hd : a.outDir with
  | none => exact absurd hd ho
  | some o =>
    have hall : a.free.all (fun p => (w.text p).isSome) = true := by
      rw [List.all_eq_true]
      intro p hq
      obtain ⟨e, he, rfl⟩ := List.mem_map.1 (hp.mem_iff.1 hq)
      rw [ht e he]; rfl
    simp only [hall, if_true, Bool.false_eq_true, if_false]
    exact hl

/-- Non-vacuity: the dictionaries in `/repo/dicts`, given in reverse order. -/
example : ∃ (w : World) (a : Args), a.help = false ∧ a.outDir ≠ none ∧
    a.free.Perm (entries.map (dictPath [.rootDir, .normal c!"repo", .normal c!"dicts"])) ∧ a.free.length = 24 ∧
    (∀ e ∈ entries, w.text (dictPath [.rootDir, .normal c!"repo", .normal c!"dicts"] e) = some (unlines e.dict)) ∧
    (∀ name, w.create name = true) := by
  classical
  have hinj : ∀ e ∈ entries, ∀ e' ∈ entries, e.rfcName = e'.rfcName → e = e' := by
    have hn : (entries.map (fun e => e.rfcName)).Nodup := by decide +kernel
    intro e he e' he' h
    exact List.inj_on_of_nodup_map hn he he' h
  refine ⟨⟨fun p => (entries.find? (fun e => decide (p = dictPath [.rootDir, .normal c!"repo", .normal c!"dicts"] e))).map
      (fun e => unlines e.dict), fun _ => true⟩,
    ⟨false, some c!"out", (entries.map (dictPath [.rootDir, .normal c!"repo", .normal c!"dicts"])).reverse⟩, rfl, by simp,
    List.reverse_perm _, by rw [List.length_reverse, List.length_map]; rfl, ?_, fun _ => rfl⟩
  intro e he
  show Option.map _ (List.find? _ entries) = _
  cases hf : entries.find? (fun e' => decide (dictPath [.rootDir, .normal c!"repo", .normal c!"dicts"] e =
      dictPath [.rootDir, .normal c!"repo", .normal c!"dicts"] e')) with
  | none =>
    have := List.find?_eq_none.1 hf e he
    simp at this
  | some e' =>
    have h1 := List.find?_some hf
    have h2 := List.mem_of_find?_eq_some hf
    have : e.rfcName = e'.rfcName := by simpa [dictPath] using h1
    rw [hinj e he e' h2 this]; rfl

end Radius

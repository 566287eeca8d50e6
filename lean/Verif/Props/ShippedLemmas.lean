import Verif.Spec.Layout
import Verif.Props.ShippedParse
/-! # C50: lemmas for comparing generated and shipped modules -/
namespace Radius.Gen
open Spec Shipped

theorem strEq_iff : ∀ {a b : Str}, strEq a b = true ↔ a = b
  | [], [] => by simp [strEq]
  | [], _ :: _ => by simp [strEq]
  | _ :: _, [] => by simp [strEq]
  | a :: as, b :: bs => by
    unfold strEq
    cases h : Nat.beq a b with
    | false => simp only [cond_false, List.cons.injEq]; have := Nat.ne_of_beq_eq_false h; simp [this]
    | true => simp only [cond_true, List.cons.injEq, Nat.eq_of_beq_eq_true h, true_and]; exact strEq_iff

/-- Comparison of token lists. -/
def toksEq : List Str → List Str → Bool
  | [], [] => true
  | a :: as, b :: bs => bif strEq a b then toksEq as bs else false
  | _, _ => false

theorem toksEq_eq : ∀ {a b : List Str}, toksEq a b = true → a = b
  | [], [], _ => rfl
  | [], _ :: _, h => by simp [toksEq] at h
  | _ :: _, [], h => by simp [toksEq] at h
  | a :: as, b :: bs, h => by
    unfold toksEq at h
    cases hs : strEq a b with
    | false => rw [hs] at h; cases h
    | true => rw [hs] at h; rw [strEq_iff.mp hs, toksEq_eq h]

/-- No line contains a newline. -/
def noNewlines (ls : List Str) : Bool := ls.all (fun l => l.all (fun c => !Nat.beq c 10))

theorem splitLines_append : ∀ (l rest cur : Str), l.all (fun c => !Nat.beq c 10) = true →
    splitLines (l ++ 10 :: rest) cur = (cur.reverse ++ l) :: splitLines rest []
  | [], rest, cur, _ => by
    rw [List.nil_append, splitLines]
    simp only [show Nat.beq 10 10 = true from rfl, cond_true, List.append_nil]
  | c :: l, rest, cur, h => by
    simp only [List.all_cons, Bool.and_eq_true, Bool.not_eq_true'] at h
    rw [List.cons_append, splitLines, h.1, cond_false, splitLines_append l rest (c :: cur) h.2]
    simp only [List.reverse_cons, List.append_assoc, List.cons_append, List.nil_append]

theorem splitLines_unlines : ∀ (ls : List Str), noNewlines ls = true → splitLines (unlines ls) [] = ls ++ [[]]
  | [], _ => rfl
  | l :: ls, h => by
    simp only [noNewlines, List.all_cons, Bool.and_eq_true] at h
    rw [unlines, splitLines_append l _ _ h.1, splitLines_unlines ls h.2]
    rfl

theorem significant_unlines (ls : List Str) (h : noNewlines ls = true) :
    significant (unlines ls) = significantLines ls := by
  unfold significant significantLines tokens
  rw [splitLines_unlines ls h, List.flatMap_append]
  simp [lexLine, flush]

/-- The state of the generator after a dictionary. -/
noncomputable def advance (s : MainState) (e : Entry) : MainState :=
  { rfcNames := s.rfcNames ++ [e.rfcName]
    names := (e.table.attributes.map (fun a => (a.name, e.rfcName))).reverse ++ s.names }

/-- The text of the module for parsed contents. -/
noncomputable def moduleText (s : MainState) (e : Entry) : Out Str Str :=
  match generateAttributesCode e.table.values e.table.attributes with
  | .ok code => .ok (generateHeader s.rfcNames e.rfcName (readLines e.file.text) ++ code ++ generateValuesCode e.table.values s.names)
  | .err e => .err e
  | .panic => .panic

/-- The comparison for one module. -/
noncomputable def check (s : MainState) (e : Entry) : Bool :=
  bif noNewlines e.module then
    match moduleText s e with
    | .ok t => toksEq (significant t) (significantLines e.module)
    | _ => false
  else false

/-- The generator turns the dictionary into a text with the tokens of the module. -/
def Good (s : MainState) (e : Entry) : Prop := ∀ nd, ∃ t, generateFile nd s e.file = .ok (t, advance s e) ∧
  significant t = significant (unlines e.module)

theorem good_of_check {s : MainState} {e : Entry} (hp : parseDict (fun _ => false) e.file.text = .ok e.table)
    (hc : check s e = true) : Good s e := by
  intro nd
  have hp' := parseDict_nd nd hp
  unfold check at hc
  cases hn : noNewlines e.module with
  | false => rw [hn] at hc; cases hc
  | true =>
    rw [hn, cond_true] at hc
    rw [significant_unlines _ hn]
    unfold moduleText at hc
    unfold generateFile
    simp only [hp']
    cases hg : generateAttributesCode e.table.values e.table.attributes with
    | err _ => rw [hg] at hc; cases hc
    | panic => rw [hg] at hc; cases hc
    | ok code => rw [hg] at hc; exact ⟨_, rfl, toksEq_eq hc⟩

end Radius.Gen

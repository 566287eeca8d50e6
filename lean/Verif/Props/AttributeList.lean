import Verif.Props.Auth
/-! # C15, C16: the attribute list as a per-type sequence; frame conditions -/
namespace Radius
open Spec

/-- The values of type `t` in an attribute list. -/
theorem lookupAll_eq (p : Packet) (t : AVPType) :
    p.lookupAll t = p.attributes.filter (fun a => a.typ = t) := by
  unfold Packet.lookupAll Attributes.lookupAll
  rfl

theorem lookupAll_add (p : Packet) (a : AVP) (t : AVPType) :
    (p.add a).lookupAll t = p.lookupAll t ++ (if a.typ = t then [a] else []) := by
  simp only [lookupAll_eq, Packet.add, Attributes.add, List.filter_append]
  by_cases h : a.typ = t <;> simp [h]

theorem lookupAll_extend (p : Packet) (as : List AVP) (t : AVPType) :
    (p.extend as).lookupAll t = p.lookupAll t ++ as.filter (fun a => a.typ = t) := by
  simp only [lookupAll_eq, Packet.extend, Attributes.extend, List.filter_append]

theorem lookupAll_delete (p : Packet) (t' t : AVPType) :
    (p.delete t').lookupAll t = if t' = t then [] else p.lookupAll t := by
  simp only [lookupAll_eq, Packet.delete, Attributes.del, List.filter_filter]
  by_cases h : t' = t
  · subst h; simp
  · rw [if_neg h]
    congr 1; funext a
    by_cases h2 : a.typ = t
    · simp [h2, Ne.symm h]
    · simp [h2]

theorem lookup_eq_head (p : Packet) (t : AVPType) : p.lookup t = (p.lookupAll t).head? := by
  unfold Packet.lookup Attributes.lookup Packet.lookupAll Attributes.lookupAll
  simp [List.head?_filter]

theorem lookupAll_typ (p : Packet) (t : AVPType) : ∀ a ∈ p.lookupAll t, a.typ = t := by
  rw [lookupAll_eq]; intro a ha; simpa using (List.mem_filter.1 ha).2

/-- **C15** After any sequence of edits, each type holds exactly its own sequence of values, and `lookup`
returns the first of them. -/
theorem C15_attribute_history (p : Packet) (es : List Edit) (t : AVPType) :
    ((runEdits p es).lookupAll t).map (fun a => a.value)
      = history t ((p.lookupAll t).map (fun a => a.value)) es ∧
    (∀ a ∈ (runEdits p es).lookupAll t, a.typ = t) ∧
    (runEdits p es).lookup t = ((runEdits p es).lookupAll t).head? := by
  refine ⟨?_, lookupAll_typ _ _, lookup_eq_head _ _⟩
  induction es generalizing p with
  | nil => rfl
  | cons e es ih =>
    have hstep := ih (e.run p)
    cases e with
    | add a =>
      rw [Edit.run, lookupAll_add] at hstep
      unfold history runEdits
      simp only [List.foldl_cons]
      unfold runEdits at hstep
      rw [Edit.run, hstep]
      congr 1
      by_cases h : a.typ = t <;> simp [h, Edit.added]
    | extend as =>
      rw [Edit.run, lookupAll_extend] at hstep
      unfold history runEdits
      simp only [List.foldl_cons]
      unfold runEdits at hstep
      rw [Edit.run, hstep]
      simp [Edit.added]
    | delete t' =>
      rw [Edit.run, lookupAll_delete] at hstep
      unfold history runEdits
      simp only [List.foldl_cons]
      unfold runEdits at hstep
      rw [Edit.run, hstep]
      by_cases h : t' = t <;> simp [h]

theorem history_no_delete (t : AVPType) (vs : List Bytes) (es : List Edit)
    (h : ∀ e ∈ es, e ≠ .delete t) : history t vs es = vs ++ (es.map (Edit.added t)).flatten := by
  induction es generalizing vs with
  | nil => simp [history]
  | cons e es ih =>
    have h' : ∀ e ∈ es, e ≠ .delete t := fun e he => h e (by simp [he])
    cases e with
    | delete t' =>
      have : t' ≠ t := fun hh => h (.delete t') (by simp) (by rw [hh])
      simp [history, this, ih vs h', Edit.added]
    | add a => simp [history, ih _ h', List.append_assoc]
    | extend as => simp [history, ih _ h', List.append_assoc]

theorem history_append (t : AVPType) (vs : List Bytes) (es es' : List Edit) :
    history t vs (es ++ es') = history t (history t vs es) es' := by
  induction es generalizing vs with
  | nil => rfl
  | cons e es ih => cases e <;> simp [history, ih]

/-- **C15** in the words of the property: what `lookup_all(t)` returns are the values of type `t` added
since the last `delete(t)`, in order. -/
theorem C15_since_last_delete (p : Packet) (before after : List Edit) (t : AVPType)
    (h : ∀ e ∈ after, e ≠ .delete t) :
    ((runEdits p (before ++ .delete t :: after)).lookupAll t).map (fun a => a.value)
      = (after.map (Edit.added t)).flatten := by
  rw [(C15_attribute_history p _ t).1, history_append]
  simp [history, history_no_delete t [] after h]

/-- If `t` is never deleted, the values of the packet at the start come first. -/
theorem C15_never_deleted (p : Packet) (es : List Edit) (t : AVPType) (h : ∀ e ∈ es, e ≠ .delete t) :
    ((runEdits p es).lookupAll t).map (fun a => a.value)
      = (p.lookupAll t).map (fun a => a.value) ++ (es.map (Edit.added t)).flatten := by
  rw [(C15_attribute_history p _ t).1, history_no_delete t _ es h]

/-- A concrete history. -/
example : ((runEdits (samplePacket .AccessRequest)
    [.add ⟨1, [9]⟩, .delete 1, .extend [⟨1, [4]⟩, ⟨2, [5]⟩], .add ⟨1, [6]⟩, .delete 2]).lookupAll 1).map
      (fun a => a.value) = [[4], [6]] := by decide +kernel

/-- **C16** Frame conditions of the mutators and what a response inherits. -/
theorem C16_frame (p : Packet) (es : List Edit) (ident : UInt8) (code : Code) :
    ((runEdits p es).getCode = p.getCode ∧ (runEdits p es).getIdentifier = p.getIdentifier ∧
      (runEdits p es).getAuthenticator = p.getAuthenticator ∧ (runEdits p es).getSecret = p.getSecret) ∧
    ((p.setIdentifier ident).getIdentifier = ident ∧ (p.setIdentifier ident).getCode = p.getCode ∧
      (p.setIdentifier ident).getAuthenticator = p.getAuthenticator ∧
      (p.setIdentifier ident).getSecret = p.getSecret ∧
      (p.setIdentifier ident).attributes = p.attributes) ∧
    ((p.makeResponsePacket code).getCode = code ∧
      (p.makeResponsePacket code).getIdentifier = p.getIdentifier ∧
      (p.makeResponsePacket code).getAuthenticator = p.getAuthenticator ∧
      (p.makeResponsePacket code).getSecret = p.getSecret ∧
      (p.makeResponsePacket code).attributes = []) := by
  obtain ⟨h1, h2, h3, h4⟩ := runEdits_fields p es
  exact ⟨⟨h1, h2, h3, h4⟩, ⟨rfl, rfl, rfl, rfl, rfl⟩, ⟨rfl, rfl, rfl, rfl, rfl⟩⟩

/-- **C16** What the constructors set: the given code, secret and identifier, no attributes. -/
theorem C16_constructors (rng : Nat → UInt8) (code : Code) (secret : Bytes) (ident : UInt8) :
    ((Packet.newWithIdentifier rng code secret ident).getIdentifier = ident ∧
      (Packet.newWithIdentifier rng code secret ident).getCode = code ∧
      (Packet.newWithIdentifier rng code secret ident).getSecret = secret ∧
      ∀ t, (Packet.newWithIdentifier rng code secret ident).lookupAll t = []) ∧
    ((Packet.new rng code secret).getCode = code ∧ (Packet.new rng code secret).getSecret = secret ∧
      ∀ t, (Packet.new rng code secret).lookupAll t = []) :=
  ⟨⟨rfl, rfl, rfl, fun _ => rfl⟩, ⟨rfl, rfl, fun _ => rfl⟩⟩

end Radius

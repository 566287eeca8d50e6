import Verif.Spec.Server
import Verif.Props.Decode
import Verif.Props.Auth
/-! # The invariant of the server transition system -/
namespace Radius
open Spec Server

/-! ### Traces -/

theorem eventsOf_append (i : Nat) (tr es : List Event) :
    eventsOf i (tr ++ es) = eventsOf i tr ++ eventsOf i es := by simp [eventsOf]

theorem eventsOf_all {i : Nat} {es : List Event} (h : ∀ e ∈ es, taskOf e = some i) : eventsOf i es = es := by
  unfold eventsOf
  rw [List.filter_eq_self]
  simpa using h

theorem eventsOf_other {i j : Nat} {es : List Event} (h : ∀ e ∈ es, taskOf e = some i) (hj : j ≠ i) :
    eventsOf j es = [] := by
  unfold eventsOf
  rw [List.filter_eq_nil_iff]
  intro e he
  rw [h e he]
  simp; exact fun hh => hj hh.symm

theorem mem_eventsOf {i : Nat} {e : Event} {tr : List Event} (h : taskOf e = some i) :
    e ∈ eventsOf i tr ↔ e ∈ tr := by
  simp [eventsOf, List.mem_filter, h]

theorem heldBy_iff (tr : List Event) (j : Nat) (k : RequestKey) :
    heldBy tr j k ↔ .admitted j k ∈ eventsOf j tr ∧ .released j k ∉ eventsOf j tr := by
  unfold heldBy
  rw [mem_eventsOf rfl, mem_eventsOf rfl]

/-- Events that belong to a task do not touch the configuration. -/
theorem cfg_taskEvents {i : Nat} {es : List Event} (h : ∀ e ∈ es, taskOf e = some i) (tr : List Event) :
    bufferSizeAfter (tr ++ es) = bufferSizeAfter tr ∧ skipAfter (tr ++ es) = skipAfter tr ∧
    runningAfter (tr ++ es) = runningAfter tr := by
  unfold bufferSizeAfter skipAfter runningAfter
  simp only [List.foldl_append]
  generalize List.foldl _ 1500 tr = a
  generalize List.foldl _ false tr = b
  generalize List.foldl _ false tr = c
  induction es with
  | nil => exact ⟨rfl, rfl, rfl⟩
  | cons e es ih =>
    have he := h e (by simp)
    have := ih (fun e he => h e (by simp [he]))
    cases e <;> first | (simp [taskOf] at he; done) | exact this

/-! ### Histories of single tasks -/

/-- The phases in which a task owns the lock. -/
def Phase.owns : Phase → Bool
  | .locked .. | .checked .. | .lockedAgain .. => true
  | _ => false

/-- The events of a task after its datagram was received, by phase. -/
inductive Hist (H : Hash) (i : Nat) (data : Bytes) (loc rem : SocketAddr) (skip : Bool) : Phase → List Event → Prop
  | spawned : Hist H i data loc rem skip .spawned []
  | rejected (ans : SecretAnswer) : ans ≠ .panic →
      (∀ secret p, ans = .ok secret → ¬ Acceptable H skip data secret p) →
      Hist H i data loc rem skip .finished [.secret i rem ans, .rejected i]
  | providerPanic : Hist H i data loc rem skip .crashed [.secret i rem .panic, .crashed i]
  | waiting (secret : Bytes) (p : Packet) : Acceptable H skip data secret p →
      Hist H i data loc rem skip (.waiting p (keyOf rem p)) [.secret i rem (.ok secret)]
  | locked (secret : Bytes) (p : Packet) : Acceptable H skip data secret p →
      Hist H i data loc rem skip (.locked p (keyOf rem p)) [.secret i rem (.ok secret)]
  | checked (secret : Bytes) (p : Packet) : Acceptable H skip data secret p →
      Hist H i data loc rem skip (.checked p (keyOf rem p)) [.secret i rem (.ok secret)]
  | duplicate (secret : Bytes) (p : Packet) : Acceptable H skip data secret p →
      Hist H i data loc rem skip .finished [.secret i rem (.ok secret), .duplicate i (keyOf rem p)]
  | admitted (secret : Bytes) (p : Packet) : Acceptable H skip data secret p →
      Hist H i data loc rem skip (.admitted p (keyOf rem p))
        [.secret i rem (.ok secret), .admitted i (keyOf rem p)]
  | handling (secret : Bytes) (p : Packet) : Acceptable H skip data secret p →
      Hist H i data loc rem skip (.handling p (keyOf rem p))
        [.secret i rem (.ok secret), .admitted i (keyOf rem p), .started i ⟨loc, rem, p⟩]
  | handlerPanic (secret : Bytes) (p : Packet) : Acceptable H skip data secret p →
      Hist H i data loc rem skip .crashed
        [.secret i rem (.ok secret), .admitted i (keyOf rem p), .started i ⟨loc, rem, p⟩, .ended i .panic]
  | returned (secret : Bytes) (p : Packet) (o : Outcome) : Acceptable H skip data secret p → o ≠ .panic →
      Hist H i data loc rem skip (.returned (keyOf rem p))
        [.secret i rem (.ok secret), .admitted i (keyOf rem p), .started i ⟨loc, rem, p⟩, .ended i o]
  | lockedAgain (secret : Bytes) (p : Packet) (o : Outcome) : Acceptable H skip data secret p → o ≠ .panic →
      Hist H i data loc rem skip (.lockedAgain (keyOf rem p))
        [.secret i rem (.ok secret), .admitted i (keyOf rem p), .started i ⟨loc, rem, p⟩, .ended i o]
  | released (secret : Bytes) (p : Packet) (o : Outcome) : Acceptable H skip data secret p → o ≠ .panic →
      Hist H i data loc rem skip .finished
        [.secret i rem (.ok secret), .admitted i (keyOf rem p), .started i ⟨loc, rem, p⟩, .ended i o,
         .released i (keyOf rem p)]

/-- The part of the invariant about one task. -/
def TaskInv (H : Hash) (i : Nat) (t : Task) (tr : List Event) : Prop :=
  ∃ d pre post rest, tr = pre ++ .received i d t.remoteAddr t.localAddr :: post ∧ runningAfter pre = true ∧
    t.requestData = d.take (bufferSizeAfter pre) ∧ t.skipAuthenticityValidation = skipAfter pre ∧
    eventsOf i tr = .received i d t.remoteAddr t.localAddr :: rest ∧
    Hist H i t.requestData t.localAddr t.remoteAddr t.skipAuthenticityValidation t.phase rest

/-- The part about the lock. -/
def LockInv (lock : LockState) (tasks : List Task) : Prop :=
  lock.poisoned = false ∧ ∀ j, lock.owner = some j ↔ ∃ t, tasks[j]? = some t ∧ t.phase.owns = true

/-- The part about the set of keys. -/
def KeyInv (keys : List RequestKey) (tr : List Event) : Prop :=
  (∀ k, k ∈ keys ↔ ∃ j, heldBy tr j k) ∧ ∀ i j k, heldBy tr i k → heldBy tr j k → i = j

/-- A task that is about to insert its key has found it absent, and it still is. -/
def FreeInv (keys : List RequestKey) (tasks : List Task) : Prop :=
  ∀ (j : Nat) (t : Task) (p : Packet) (k : RequestKey), tasks[j]? = some t → t.phase = .checked p k → k ∉ keys

/-- The part about the configuration. -/
def CfgInv (s : State) (tr : List Event) : Prop :=
  s.bufSize = bufferSizeAfter tr ∧ s.skipAuthenticityValidation = skipAfter tr ∧
  s.buf.isSome = runningAfter tr ∧ ∀ b, s.buf = some b → b.length = s.bufSize

structure Inv (H : Hash) (s : State) (tr : List Event) : Prop where
  task : ∀ i t, s.tasks[i]? = some t → TaskInv H i t tr
  fresh : ∀ i, s.tasks.length ≤ i → eventsOf i tr = []
  lock : LockInv s.lock s.tasks
  keys : KeyInv s.undergoing tr
  free : FreeInv s.undergoing s.tasks
  cfg : CfgInv s tr

theorem validate_spec (H : Hash) (data : Bytes) (rem : SocketAddr) (skip : Bool) (ans : SecretAnswer) :
    (ans = .panic ∧ validate H data rem skip ans = .panic) ∨
    (ans ≠ .panic ∧ validate H data rem skip ans = .ok none ∧
      ∀ secret p, ans = .ok secret → ¬ Acceptable H skip data secret p) ∨
    (∃ secret p, ans = .ok secret ∧ Acceptable H skip data secret p ∧
      validate H data rem skip ans = .ok (some (p, keyOf rem p))) := by
  cases ans with
  | panic => exact .inl ⟨rfl, rfl⟩
  | err => exact .inr (.inl ⟨by simp, rfl, by simp⟩)
  | ok secret =>
    by_cases hs : secret = []
    · refine .inr (.inl ⟨by simp, by simp [validate, hs], ?_⟩)
      intro s p h ha
      injection h with h
      exact ha.1 (by rw [← h, hs])
    · have he : secret.isEmpty = false := by simpa using hs
      obtain ⟨b, hb⟩ := (C12_request_check_exact H data secret).1
      by_cases hv : (if skip then true else b) = true
      · cases hd : Packet.decode data secret with
        | ok p =>
          refine .inr (.inr ⟨secret, p, rfl, ⟨hs, hd, ?_⟩, ?_⟩)
          · intro h; rw [h] at hv; simp at hv; rw [hb, hv]
          · cases skip <;> simp_all [validate, keyOf, Packet.getIdentifier]
        | err e =>
          refine .inr (.inl ⟨by simp, ?_, ?_⟩)
          · cases skip <;> simp_all [validate]
          · intro s p h ha
            injection h with h
            rw [← h] at ha
            have := ha.2.1; rw [hd] at this; cases this
        | panic => exact absurd hd (C01_decode_never_panics data secret)
      · refine .inr (.inl ⟨by simp, ?_, ?_⟩)
        · cases skip <;> simp_all [validate]
        · intro s p h ha
          injection h with h
          rw [← h] at ha
          apply hv
          cases skip with
          | true => rfl
          | false =>
            have := ha.2.2 rfl
            rw [hb] at this
            injection this with this

/-! ### Preservation -/

theorem getElem?_setPhase (s : State) (i j : Nat) (ph : Phase) :
    (setPhase s i ph).tasks[j]? =
      if j = i then s.tasks[j]?.map (fun t => { t with phase := ph }) else s.tasks[j]? := by
  simp only [setPhase, List.getElem?_modify]
  by_cases h : i = j
  · subst h; simp
  · rw [if_neg (fun hh => h hh.symm)]; simp [h]

/-- One task moves from phase to phase and emits events. -/
theorem Inv.taskStep {H : Hash} {s s' : State} {tr es : List Event} (h : Inv H s tr) (i : Nat) (t : Task)
    (ht : s.tasks[i]? = some t) (ph : Phase) (hes : ∀ e ∈ es, taskOf e = some i)
    (htasks : s'.tasks = (setPhase s i ph).tasks)
    (hist : ∀ rest, Hist H i t.requestData t.localAddr t.remoteAddr t.skipAuthenticityValidation t.phase rest →
      Hist H i t.requestData t.localAddr t.remoteAddr t.skipAuthenticityValidation ph (rest ++ es))
    (hlock : LockInv s'.lock s'.tasks) (hkeys : KeyInv s'.undergoing (tr ++ es))
    (hfree : FreeInv s'.undergoing s'.tasks)
    (hcfg : s'.bufSize = s.bufSize ∧ s'.skipAuthenticityValidation = s.skipAuthenticityValidation ∧
      s'.buf = s.buf) : Inv H s' (tr ++ es) := by
  have hcf := cfg_taskEvents hes tr
  refine ⟨?_, ?_, hlock, hkeys, hfree, ?_⟩
  · intro j u hu
    rw [htasks, getElem?_setPhase] at hu
    by_cases hj : j = i
    · subst hj
      rw [if_pos rfl, ht] at hu
      obtain rfl : { t with phase := ph } = u := by simpa using hu
      obtain ⟨d, pre, post, rest, rfl, h2, h3, h4, h5, h6⟩ := h.task j t ht
      refine ⟨d, pre, post ++ es, rest ++ es, by simp, h2, h3, h4, ?_, hist rest h6⟩
      rw [eventsOf_append, h5, eventsOf_all hes]; rfl
    · rw [if_neg hj] at hu
      obtain ⟨d, pre, post, rest, rfl, h2, h3, h4, h5, h6⟩ := h.task j u hu
      refine ⟨d, pre, post ++ es, rest, by simp, h2, h3, h4, ?_, h6⟩
      rw [eventsOf_append, h5, eventsOf_other hes hj, List.append_nil]
  · intro j hj
    rw [htasks] at hj
    have hj' : s.tasks.length ≤ j := by simpa [setPhase] using hj
    have hi : i < s.tasks.length := (List.getElem?_eq_some_iff.1 ht).1
    rw [eventsOf_append, h.fresh j hj', eventsOf_other hes (by omega)]; rfl
  · obtain ⟨c1, c2, c3, c4⟩ := h.cfg
    obtain ⟨e1, e2, e3⟩ := hcfg
    refine ⟨?_, ?_, ?_, ?_⟩
    · rw [e1, c1, hcf.1]
    · rw [e2, c2, hcf.2.1]
    · rw [e3, c3, hcf.2.2]
    · rw [e3, e1]; exact c4

theorem LockInv.keep {s : State} {i : Nat} {t : Task} {ph : Phase} (h : LockInv s.lock s.tasks)
    (ht : s.tasks[i]? = some t) (ho : ph.owns = t.phase.owns) :
    LockInv s.lock (setPhase s i ph).tasks := by
  refine ⟨h.1, fun j => ?_⟩
  rw [h.2 j, getElem?_setPhase]
  by_cases hj : j = i
  · subst hj; simp [ht, ho]
  · rw [if_neg hj]

theorem LockInv.take {s : State} {i : Nat} {t : Task} {ph : Phase} (h : LockInv s.lock s.tasks)
    (ht : s.tasks[i]? = some t) (hf : s.lock.owner = none) (ho : ph.owns = true) :
    LockInv { s.lock with owner := some i } (setPhase s i ph).tasks := by
  refine ⟨h.1, fun j => ?_⟩
  rw [getElem?_setPhase]
  by_cases hj : j = i
  · subst hj; simp [ht, ho]
  · rw [if_neg hj, ← h.2 j, hf]; simp; exact fun hh => hj hh.symm

theorem LockInv.drop {s : State} {i : Nat} {t : Task} {ph : Phase} (h : LockInv s.lock s.tasks)
    (ht : s.tasks[i]? = some t) (hw : t.phase.owns = true) (ho : ph.owns = false) :
    LockInv { s.lock with owner := none } (setPhase s i ph).tasks := by
  have hi : s.lock.owner = some i := (h.2 i).2 ⟨t, ht, hw⟩
  refine ⟨h.1, fun j => ?_⟩
  rw [getElem?_setPhase]
  by_cases hj : j = i
  · subst hj; simp [ht, ho]
  · rw [if_neg hj, ← h.2 j, hi]; simp; exact fun hh => hj hh.symm

/-- A panic of a task that does not own the lock. -/
theorem crash_eq {s : State} {i : Nat} {t : Task} (h : LockInv s.lock s.tasks) (ht : s.tasks[i]? = some t)
    (hw : t.phase.owns = false) : crash s i = setPhase s i .crashed := by
  unfold crash
  have : s.lock.owner ≠ some i := by
    intro hh
    obtain ⟨u, hu, ho⟩ := (h.2 i).1 hh
    rw [ht] at hu
    obtain rfl := Option.some.inj hu
    rw [hw] at ho; cases ho
  exact if_neg this

theorem KeyInv.keep {keys : List RequestKey} {tr es : List Event} (h : KeyInv keys tr)
    (h1 : ∀ j k, .admitted j k ∉ es) (h2 : ∀ j k, .released j k ∉ es) : KeyInv keys (tr ++ es) := by
  have e : ∀ j k, heldBy (tr ++ es) j k ↔ heldBy tr j k := by
    intro j k; simp [heldBy, h1, h2]
  exact ⟨fun k => by rw [h.1 k]; simp only [e], fun i j k => by rw [e, e]; exact h.2 i j k⟩

theorem FreeInv.keep {s : State} {i : Nat} {ph : Phase} (h : FreeInv s.undergoing s.tasks)
    (hph : ∀ p k, ph ≠ .checked p k) : FreeInv s.undergoing (setPhase s i ph).tasks := by
  intro j u p k hu hc
  rw [getElem?_setPhase] at hu
  by_cases hj : j = i
  · rw [if_pos hj] at hu
    obtain ⟨t, _, rfl⟩ := Option.map_eq_some_iff.1 hu
    exact absurd hc (hph p k)
  · rw [if_neg hj] at hu
    exact h j u p k hu hc

/-- While a task owns the lock no other one is about to insert. -/
theorem FreeInv.owner {s : State} {i : Nat} {t : Task} {ph : Phase} (h : LockInv s.lock s.tasks)
    (ht : s.tasks[i]? = some t) (hw : t.phase.owns = true) (keys : List RequestKey)
    (hph : ∀ p k, ph = .checked p k → k ∉ keys) : FreeInv keys (setPhase s i ph).tasks := by
  intro j u p k hu hc
  rw [getElem?_setPhase] at hu
  by_cases hj : j = i
  · rw [if_pos hj] at hu
    obtain ⟨t, _, rfl⟩ := Option.map_eq_some_iff.1 hu
    exact hph p k hc
  · rw [if_neg hj] at hu
    have h1 := (h.2 i).2 ⟨t, ht, hw⟩
    have h2 := (h.2 j).2 ⟨u, hu, by rw [hc]; rfl⟩
    rw [h1] at h2
    exact absurd (Option.some.inj h2).symm hj

theorem exec_inv {H : Hash} {s : State} {tr : List Event} (h : Exec H s tr) : Inv H s tr := by
  induction h with
  | init =>
    refine ⟨by simp [listen], fun _ _ => rfl, ⟨rfl, by simp [listen]⟩, ⟨?_, ?_⟩, by simp [FreeInv, listen], ⟨rfl, rfl, rfl, ?_⟩⟩
    · simp [listen, heldBy]
    · simp [heldBy]
    · simp [listen]
  | step s s' tr es a _ hs ih =>
    -- steps that are not taken by a task
    have quiet : ∀ (e : Event), taskOf e = none → es = [e] → s'.tasks = s.tasks → s'.lock = s.lock →
        s'.undergoing = s.undergoing → CfgInv s' (tr ++ es) → Inv H s' (tr ++ es) := by
      intro e he hes h1 h2 h3 h4
      subst hes
      have hev : ∀ i, eventsOf i (tr ++ [e]) = eventsOf i tr := by
        intro i; rw [eventsOf_append]; simp [eventsOf, he]
      refine ⟨?_, ?_, by rw [h1, h2]; exact ih.lock, ?_, by rw [h1, h3]; exact ih.free, h4⟩
      · intro i t ht
        rw [h1] at ht
        obtain ⟨d, pre, post, rest, h5, h6, h7, h8, h9, h10⟩ := ih.task i t ht
        exact ⟨d, pre, post ++ [e], rest, by rw [h5]; simp, h6, h7, h8, by rw [hev, h9], h10⟩
      · intro i hi; rw [hev]; exact ih.fresh i (by rw [← h1]; exact hi)
      · rw [h3]
        refine ih.keys.keep ?_ ?_ <;> intro j k hm <;>
          · rw [List.mem_singleton] at hm; rw [← hm] at he; cases he
    obtain ⟨c1, c2, c3, c4⟩ := ih.cfg
    cases a with
    | setBufferSize n =>
      simp only [step] at hs
      split at hs
      · cases hs
      · rename_i hb
        obtain ⟨rfl, rfl⟩ := Prod.mk.inj (Option.some.inj hs)
        refine quiet (.bufferSizeSet n) rfl rfl rfl rfl rfl ⟨?_, ?_, ?_, ?_⟩
        · simp [bufferSizeAfter]
        · simpa [skipAfter] using c2
        · simpa [runningAfter] using c3
        · intro b hb'; exact absurd (Option.isSome_iff_exists.2 ⟨b, hb'⟩) hb
    | setSkip n =>
      simp only [step] at hs
      split at hs
      · cases hs
      · obtain ⟨rfl, rfl⟩ := Prod.mk.inj (Option.some.inj hs)
        refine quiet (.skipSet n) rfl rfl rfl rfl rfl ⟨?_, ?_, ?_, ?_⟩
        · simpa [bufferSizeAfter] using c1
        · simp [skipAfter]
        · simpa [runningAfter] using c3
        · exact c4
    | run =>
      simp only [step] at hs
      split at hs
      · cases hs
      · obtain ⟨rfl, rfl⟩ := Prod.mk.inj (Option.some.inj hs)
        refine quiet .runStarted rfl rfl rfl rfl rfl ⟨?_, ?_, ?_, ?_⟩
        · simpa [bufferSizeAfter] using c1
        · simpa [skipAfter] using c2
        · simp [runningAfter]
        · intro b hb; obtain rfl := Option.some.inj hb; simp
    | shutdown =>
      simp only [step] at hs
      split at hs
      · obtain ⟨rfl, rfl⟩ := Prod.mk.inj (Option.some.inj hs)
        refine quiet (.runReturned none) rfl rfl rfl rfl rfl ⟨?_, ?_, ?_, ?_⟩
        · simpa [bufferSizeAfter] using c1
        · simpa [skipAfter] using c2
        · simp [runningAfter]
        · intro b hb; cases hb
      · cases hs
    | dropRun =>
      simp only [step] at hs
      split at hs
      · obtain ⟨rfl, rfl⟩ := Prod.mk.inj (Option.some.inj hs)
        refine quiet .runDropped rfl rfl rfl rfl rfl ⟨?_, ?_, ?_, ?_⟩
        · simpa [bufferSizeAfter] using c1
        · simpa [skipAfter] using c2
        · simp [runningAfter]
        · intro b hb; cases hb
      · cases hs
    | recvError e =>
      simp only [step] at hs
      split at hs
      · obtain ⟨rfl, rfl⟩ := Prod.mk.inj (Option.some.inj hs)
        refine quiet (.runReturned (some e)) rfl rfl rfl rfl rfl ⟨?_, ?_, ?_, ?_⟩
        · simpa [bufferSizeAfter] using c1
        · simpa [skipAfter] using c2
        · simp [runningAfter]
        · intro b hb; cases hb
      · cases hs
    | recv d rem loc =>
      simp only [step] at hs
      split at hs
      · cases hs
      · rename_i buf hbuf
        have hlen : ∀ b, some (recvInto buf d).1 = some b → b.length = s.bufSize := by
          intro b hb
          obtain rfl := Option.some.inj hb
          rw [← c4 buf hbuf]
          simp [recvInto]; omega
        split at hs
        · obtain ⟨rfl, rfl⟩ := Prod.mk.inj (Option.some.inj hs)
          refine quiet (.noLocalAddr d rem) rfl rfl rfl rfl rfl ⟨?_, ?_, ?_, hlen⟩
          · simpa [bufferSizeAfter] using c1
          · simpa [skipAfter] using c2
          · simpa [runningAfter, hbuf] using c3
        · rename_i la
          obtain ⟨rfl, rfl⟩ := Prod.mk.inj (Option.some.inj hs)
          have hdata : (recvInto buf d).1.take (recvInto buf d).2 = d.take (bufferSizeAfter tr) := by
            rw [← c1, ← c4 buf hbuf]
            simp only [recvInto]
            rw [List.take_append_of_le_length (by simp), List.take_of_length_le (by simp)]
            rcases Nat.le_total d.length buf.length with h | h
            · rw [Nat.min_eq_left h, List.take_of_length_le (Nat.le_refl _), List.take_of_length_le h]
            · rw [Nat.min_eq_right h]
          have hev : ∀ i, i ≠ s.tasks.length → eventsOf i (tr ++ [.received s.tasks.length d rem la]) = eventsOf i tr := by
            intro i hi
            rw [eventsOf_append, eventsOf_other (i := s.tasks.length) (es := [.received s.tasks.length d rem la])
              (by simp [taskOf]) hi, List.append_nil]
          refine ⟨?_, ?_, ⟨ih.lock.1, ?_⟩, ?_, ?_, ⟨?_, ?_, ?_, hlen⟩⟩
          · intro i t ht
            simp only at ht
            rcases Nat.lt_trichotomy i s.tasks.length with hi | hi | hi
            · rw [List.getElem?_append_left hi] at ht
              obtain ⟨d', pre, post, rest, h5, h6, h7, h8, h9, h10⟩ := ih.task i t ht
              exact ⟨d', pre, post ++ [.received s.tasks.length d rem la], rest, by rw [h5]; simp, h6, h7, h8,
                by rw [hev i (by omega), h9], h10⟩
            · subst hi
              simp only [List.getElem?_concat_length, Option.some.injEq] at ht
              subst ht
              refine ⟨d, tr, [], [], rfl, by rw [← c3, hbuf]; rfl, hdata, c2, ?_, .spawned⟩
              rw [eventsOf_append, ih.fresh _ (Nat.le_refl _)]
              simp [eventsOf, taskOf]
            · rw [List.getElem?_eq_none (by simp; omega)] at ht; cases ht
          · intro i hi
            simp at hi
            rw [hev i (by omega)]
            exact ih.fresh i (by omega)
          · intro j
            rw [ih.lock.2 j]
            simp only
            rcases Nat.lt_trichotomy j s.tasks.length with hi | hi | hi
            · rw [List.getElem?_append_left hi]
            · subst hi; simp [Phase.owns]
            · rw [List.getElem?_eq_none (by omega), List.getElem?_eq_none (by simp; omega)]
          · exact ih.keys.keep (by simp) (by simp)
          · intro j t p k ht hph
            rcases Nat.lt_trichotomy j s.tasks.length with hi | hi | hi
            · rw [List.getElem?_append_left hi] at ht
              exact ih.free j t p k ht hph
            · subst hi
              simp only [List.getElem?_concat_length, Option.some.injEq] at ht
              subst ht
              cases hph
            · rw [List.getElem?_eq_none (by simp; omega)] at ht; cases ht
          · simpa [bufferSizeAfter] using c1
          · simpa [skipAfter] using c2
          · simpa [runningAfter, hbuf] using c3
    | secret i ans =>
      simp only [step] at hs
      split at hs
      · rename_i t ht
        split at hs
        · rename_i hph
          rcases validate_spec H t.requestData t.remoteAddr t.skipAuthenticityValidation ans with
            ⟨rfl, hv⟩ | ⟨hne, hv, hno⟩ | ⟨secret, p, rfl, hacc, hv⟩
          · rw [hv] at hs
            obtain ⟨rfl, rfl⟩ := Prod.mk.inj (Option.some.inj hs)
            rw [crash_eq ih.lock ht (by rw [hph]; rfl)]
            refine ih.taskStep i t ht .crashed (by simp [taskOf]) rfl ?_ (ih.lock.keep ht (by rw [hph]; rfl))
              (ih.keys.keep (by simp) (by simp)) (ih.free.keep (by simp)) ⟨rfl, rfl, rfl⟩
            intro rest hr; rw [hph] at hr; cases hr; exact .providerPanic
          · rw [hv] at hs
            obtain ⟨rfl, rfl⟩ := Prod.mk.inj (Option.some.inj hs)
            refine ih.taskStep i t ht .finished (by simp [taskOf]) rfl ?_ (ih.lock.keep ht (by rw [hph]; rfl))
              (ih.keys.keep (by simp) (by simp)) (ih.free.keep (by simp)) ⟨rfl, rfl, rfl⟩
            intro rest hr; rw [hph] at hr; cases hr; exact .rejected ans hne hno
          · rw [hv] at hs
            obtain ⟨rfl, rfl⟩ := Prod.mk.inj (Option.some.inj hs)
            refine ih.taskStep i t ht (.waiting p (keyOf t.remoteAddr p)) (by simp [taskOf]) rfl ?_
              (ih.lock.keep ht (by rw [hph]; rfl)) (ih.keys.keep (by simp) (by simp)) (ih.free.keep (by simp)) ⟨rfl, rfl, rfl⟩
            intro rest hr; rw [hph] at hr; cases hr; exact .waiting secret p hacc
        · cases hs
      · cases hs
    | lock i =>
      simp only [step] at hs
      split at hs
      · rename_i t ht
        split at hs
        · rename_i p k hph
          unfold acquire at hs
          split at hs
          · cases hs
          · rename_i hown
            rw [if_neg (by simp [ih.lock.1])] at hs
            obtain ⟨rfl, rfl⟩ := Prod.mk.inj (Option.some.inj hs)
            refine ih.taskStep i t ht (.locked p k) (by simp) rfl ?_
              (ih.lock.take ht (by simpa using hown) rfl) (ih.keys.keep (by simp) (by simp)) (ih.free.keep (by simp)) ⟨rfl, rfl, rfl⟩
            intro rest hr; rw [hph] at hr; cases hr
            exact .locked _ _ (by assumption)
        · cases hs
      · cases hs
    | check i =>
      simp only [step] at hs
      split at hs
      · rename_i t ht
        split at hs
        · rename_i p k hph
          split at hs
          · obtain ⟨rfl, rfl⟩ := Prod.mk.inj (Option.some.inj hs)
            refine ih.taskStep i t ht .finished (by simp [taskOf]) rfl ?_
              (ih.lock.drop ht (by rw [hph]; rfl) rfl) (ih.keys.keep (by simp) (by simp)) (ih.free.keep (by simp)) ⟨rfl, rfl, rfl⟩
            intro rest hr; rw [hph] at hr; cases hr
            exact .duplicate _ _ (by assumption)
          · rename_i hk
            obtain ⟨rfl, rfl⟩ := Prod.mk.inj (Option.some.inj hs)
            refine ih.taskStep i t ht (.checked p k) (by simp) rfl ?_ (ih.lock.keep ht (by rw [hph]; rfl))
              (ih.keys.keep (by simp) (by simp)) (.owner ih.lock ht (by rw [hph]; rfl) _ ?_) ⟨rfl, rfl, rfl⟩
            · intro rest hr; rw [hph] at hr; cases hr
              exact .checked _ _ (by assumption)
            · intro p' k' e; cases e; exact hk
        · cases hs
      · cases hs
    | insert i =>
      simp only [step] at hs
      split at hs
      · rename_i t ht
        split at hs
        · rename_i p k hph
          · have hk : k ∉ s.undergoing := ih.free i t p k ht hph
            obtain ⟨rfl, rfl⟩ := Prod.mk.inj (Option.some.inj hs)
            refine ih.taskStep i t ht (.admitted p k) (by simp [taskOf]) rfl ?_
              (ih.lock.drop ht (by rw [hph]; rfl) rfl) ?_ (.owner ih.lock ht (by rw [hph]; rfl) _ (by simp))
              ⟨rfl, rfl, rfl⟩
            · intro rest hr; rw [hph] at hr; cases hr
              exact .admitted _ _ (by assumption)
            · -- the released event of `i` cannot be in the trace yet
              have hnr : ∀ k', .released i k' ∉ tr := by
                intro k' hm
                obtain ⟨d, pre, post, rest, _, _, _, _, h5, h6⟩ := ih.task i t ht
                rw [← mem_eventsOf (i := i) rfl, h5] at hm
                rw [hph] at h6
                cases h6
                simp at hm
              have e : ∀ j k', heldBy (tr ++ [.admitted i k]) j k' ↔ heldBy tr j k' ∨ (j = i ∧ k' = k) := by
                intro j k'
                simp only [heldBy, List.mem_append, List.mem_singleton, Event.admitted.injEq, reduceCtorEq,
                  or_false]
                constructor
                · rintro ⟨h | h, h2⟩
                  · exact .inl ⟨h, h2⟩
                  · exact .inr h
                · rintro (⟨h, h2⟩ | ⟨rfl, rfl⟩)
                  · exact ⟨.inl h, h2⟩
                  · exact ⟨.inr ⟨rfl, rfl⟩, hnr k'⟩
              have hno : ∀ j, ¬ heldBy tr j k := fun j hj => hk ((ih.keys.1 k).2 ⟨j, hj⟩)
              refine ⟨fun k' => ?_, fun a b k' ha hb => ?_⟩
              · simp only [e]
                show k' ∈ insertKey s.undergoing k ↔ _
                rw [insertKey, if_neg hk, List.mem_cons, ih.keys.1 k']
                constructor
                · rintro (rfl | ⟨j, hj⟩)
                  · exact ⟨i, .inr ⟨rfl, rfl⟩⟩
                  · exact ⟨j, .inl hj⟩
                · rintro ⟨j, hj | ⟨_, rfl⟩⟩
                  · exact .inr ⟨j, hj⟩
                  · exact .inl rfl
              · rw [e] at ha hb
                rcases ha with ha | ⟨rfl, rfl⟩ <;> rcases hb with hb | ⟨rfl, hbk⟩
                · exact ih.keys.2 a b k' ha hb
                · exact absurd (hbk ▸ ha) (hno a)
                · exact absurd hb (hno b)
                · rfl
        · cases hs
      · cases hs
    | invoke i =>
      simp only [step] at hs
      split at hs
      · rename_i t ht
        split at hs
        · rename_i p k hph
          obtain ⟨rfl, rfl⟩ := Prod.mk.inj (Option.some.inj hs)
          refine ih.taskStep i t ht (.handling p k) (by simp [taskOf]) rfl ?_ (ih.lock.keep ht (by rw [hph]; rfl))
            (ih.keys.keep (by simp) (by simp)) (ih.free.keep (by simp)) ⟨rfl, rfl, rfl⟩
          intro rest hr; rw [hph] at hr; cases hr
          exact .handling _ _ (by assumption)
        · cases hs
      · cases hs
    | handlerEnds i o =>
      simp only [step] at hs
      split at hs
      · rename_i t ht
        split at hs
        · rename_i p k hph
          split at hs
          · obtain ⟨rfl, rfl⟩ := Prod.mk.inj (Option.some.inj hs)
            rw [crash_eq ih.lock ht (by rw [hph]; rfl)]
            refine ih.taskStep i t ht .crashed (by simp [taskOf]) rfl ?_ (ih.lock.keep ht (by rw [hph]; rfl))
              (ih.keys.keep (by simp) (by simp)) (ih.free.keep (by simp)) ⟨rfl, rfl, rfl⟩
            intro rest hr; rw [hph] at hr; cases hr
            exact .handlerPanic _ _ (by assumption)
          · rename_i ho
            obtain ⟨rfl, rfl⟩ := Prod.mk.inj (Option.some.inj hs)
            refine ih.taskStep i t ht (.returned k) (by simp [taskOf]) rfl ?_ (ih.lock.keep ht (by rw [hph]; rfl))
              (ih.keys.keep (by simp) (by simp)) (ih.free.keep (by simp)) ⟨rfl, rfl, rfl⟩
            intro rest hr; rw [hph] at hr; cases hr
            exact .returned _ _ o (by assumption) ho
        · cases hs
      · cases hs
    | lockAgain i =>
      simp only [step] at hs
      split at hs
      · rename_i t ht
        split at hs
        · rename_i k hph
          unfold acquire at hs
          split at hs
          · cases hs
          · rename_i hown
            rw [if_neg (by simp [ih.lock.1])] at hs
            obtain ⟨rfl, rfl⟩ := Prod.mk.inj (Option.some.inj hs)
            refine ih.taskStep i t ht (.lockedAgain k) (by simp) rfl ?_
              (ih.lock.take ht (by simpa using hown) rfl) (ih.keys.keep (by simp) (by simp)) (ih.free.keep (by simp)) ⟨rfl, rfl, rfl⟩
            intro rest hr; rw [hph] at hr; cases hr
            rw [List.append_nil]
            exact .lockedAgain _ _ _ (by assumption) (by assumption)
        · cases hs
      · cases hs
    | remove i =>
      simp only [step] at hs
      split at hs
      · rename_i t ht
        split at hs
        · rename_i k hph
          obtain ⟨rfl, rfl⟩ := Prod.mk.inj (Option.some.inj hs)
          refine ih.taskStep i t ht .finished (by simp [taskOf]) rfl ?_
            (ih.lock.drop ht (by rw [hph]; rfl) rfl) ?_ (.owner ih.lock ht (by rw [hph]; rfl) _ (by simp))
            ⟨rfl, rfl, rfl⟩
          · intro rest hr; rw [hph] at hr; cases hr
            exact .released _ _ _ (by assumption) (by assumption)
          · have hheld : heldBy tr i k := by
              obtain ⟨d, pre, post, rest, _, _, _, _, h5, h6⟩ := ih.task i t ht
              rw [heldBy_iff, h5]
              rw [hph] at h6
              cases h6
              simp
            have e : ∀ j k', heldBy (tr ++ [.released i k]) j k' ↔ heldBy tr j k' ∧ k' ≠ k := by
              intro j k'
              simp only [heldBy, List.mem_append, List.mem_singleton, Event.released.injEq, reduceCtorEq,
                or_false, not_or]
              constructor
              · rintro ⟨h, h2, h3⟩
                refine ⟨⟨h, h2⟩, fun hk => ?_⟩
                subst hk
                exact h3 ⟨ih.keys.2 j i k' ⟨h, h2⟩ hheld, rfl⟩
              · rintro ⟨⟨h, h2⟩, h3⟩
                exact ⟨h, h2, fun h4 => h3 h4.2⟩
            refine ⟨fun k' => ?_, fun a b k' ha hb => ?_⟩
            · simp only [e]
              show k' ∈ removeKey s.undergoing k ↔ _
              simp only [removeKey, List.mem_filter, ih.keys.1 k']
              constructor
              · rintro ⟨⟨j, hj⟩, hk⟩; exact ⟨j, hj, by simpa using hk⟩
              · rintro ⟨j, hj, hk⟩; exact ⟨⟨j, hj⟩, by simpa using hk⟩
            · rw [e] at ha hb
              exact ih.keys.2 a b k' ha.1 hb.1
        · cases hs
      · cases hs

end Radius

import Verif.Lemmas.Server
/-! # C36–C43, C53: the server -/
namespace Radius
open Spec Server

/-! ### From traces to tasks and back -/

theorem split_unique {α : Type} (P : α → Prop) : ∀ {pre pre' post post' : List α} {x y : α},
    pre ++ x :: post = pre' ++ y :: post' → P x → P y → (∀ a ∈ pre, ¬ P a) → (∀ a ∈ pre', ¬ P a) →
    pre = pre' ∧ x = y ∧ post = post'
  | [], [], _, _, _, _, h, _, _, _, _ => by simpa using h
  | [], b :: pre', _, _, _, _, h, hx, _, _, h' => by
    simp only [List.nil_append, List.cons_append, List.cons.injEq] at h
    exact absurd (h.1 ▸ hx) (h' b (by simp))
  | a :: pre, [], _, _, _, _, h, _, hy, h', _ => by
    simp only [List.nil_append, List.cons_append, List.cons.injEq] at h
    exact absurd (h.1 ▸ hy) (h' a (by simp))
  | a :: pre, b :: pre', _, _, _, _, h, hx, hy, h1, h2 => by
    simp only [List.cons_append, List.cons.injEq] at h
    have := split_unique P h.2 hx hy (fun c hc => h1 c (by simp [hc])) (fun c hc => h2 c (by simp [hc]))
    exact ⟨by rw [h.1, this.1], this.2⟩

/-- The state of the task of a received datagram. -/
theorem task_facts {H : Hash} {s : State} {tr : List Event} (h : Exec H s tr) {pre post : List Event} {i : Nat}
    {d : Bytes} {rem loc : SocketAddr} (htr : tr = pre ++ .received i d rem loc :: post) :
    ∃ t rest, s.tasks[i]? = some t ∧ (t.remoteAddr = rem ∧ t.localAddr = loc) ∧ t.requestData = d.take (bufferSizeAfter pre) ∧
      t.skipAuthenticityValidation = skipAfter pre ∧ runningAfter pre = true ∧
      eventsOf i tr = .received i d rem loc :: rest ∧ eventsOf i pre = [] ∧ eventsOf i post = rest ∧
      Hist H i (d.take (bufferSizeAfter pre)) loc rem (skipAfter pre) t.phase rest := by
  have inv := exec_inv h
  have hm : (.received i d rem loc : Event) ∈ eventsOf i tr := by rw [mem_eventsOf rfl, htr]; simp
  have hi : i < s.tasks.length := by
    apply Nat.lt_of_not_le
    intro hle
    rw [inv.fresh i hle] at hm; cases hm
  obtain ⟨t, ht⟩ : ∃ t, s.tasks[i]? = some t := ⟨_, List.getElem?_eq_getElem hi⟩
  obtain ⟨d', pre', post', rest, h1, h2, h3, h4, h5, h6⟩ := inv.task i t ht
  have hnr : ∀ e ∈ rest, ∀ d r l, e ≠ .received i d r l := by
    intro e he d r l
    have h6' := h6
    generalize t.phase = ph at h6'
    cases h6' <;> simp at he <;> (try rcases he with rfl | he) <;> (try rcases he with rfl | he) <;>
      (try rcases he with rfl | he) <;> (try rcases he with rfl | he) <;> (try rcases he with rfl | he) <;>
      first | simp | (subst he; simp) | cases he
  have key : ∀ p q d' r' l', tr = p ++ .received i d' r' l' :: q → eventsOf i p = [] ∧ eventsOf i q = rest := by
    intro p q d' r' l' hpq
    rw [hpq, eventsOf_append] at h5
    have e : eventsOf i (Event.received i d' r' l' :: q) = .received i d' r' l' :: eventsOf i q := by
      simp [eventsOf, taskOf]
    rw [e] at h5
    cases hp : eventsOf i p with
    | nil => rw [hp] at h5; simp at h5; exact ⟨rfl, h5.2⟩
    | cons x xs =>
      rw [hp, List.cons_append, List.cons.injEq] at h5
      exact absurd rfl (hnr (.received i d' r' l') (by rw [← h5.2]; simp) d' r' l')
  have k1 := key pre post d rem loc htr
  have k2 := key pre' post' d' t.remoteAddr t.localAddr h1
  have noev : ∀ p, eventsOf i p = [] → ∀ e ∈ p, ¬ (taskOf e = some i) := by
    intro p hp e he hte
    have := (mem_eventsOf (tr := p) hte).2 he
    rw [hp] at this; cases this
  obtain ⟨rfl, he, rfl⟩ := split_unique (fun e => taskOf e = some i) (htr.symm.trans h1) rfl rfl
    (noev pre k1.1) (noev pre' k2.1)
  injection he with _ hd hr hl
  subst hd hr hl
  exact ⟨t, rest, ht, ⟨rfl, rfl⟩, h3, h4, h2, h5, k1.1, k1.2, by rw [← h3, ← h4]; exact h6⟩

/-- Every event of a task comes after the reception of a datagram. -/
theorem received_of_event {H : Hash} {s : State} {tr : List Event} (h : Exec H s tr) {i : Nat} {e : Event}
    (he : e ∈ tr) (hi : taskOf e = some i) :
    ∃ pre d rem loc post, tr = pre ++ .received i d rem loc :: post := by
  have inv := exec_inv h
  have hlt : i < s.tasks.length := by
    apply Nat.lt_of_not_le
    intro hle
    have := (mem_eventsOf (tr := tr) hi).2 he
    rw [inv.fresh i hle] at this; cases this
  obtain ⟨d, pre, post, rest, h1, _⟩ := inv.task i _ (List.getElem?_eq_getElem hlt)
  exact ⟨pre, d, _, _, post, h1⟩

/-- The state and step behind an event. -/
theorem exec_split {H : Hash} {s : State} {tr : List Event} (h : Exec H s tr) {pre post : List Event} {e : Event}
    (htr : tr = pre ++ e :: post) :
    ∃ s0 tr0 a s1 es0 es1, Exec H s0 tr0 ∧ step H s0 a = some (s1, es0 ++ e :: es1) ∧ pre = tr0 ++ es0 := by
  induction h generalizing pre post with
  | init => simp at htr
  | step s s' tr es a hex hs ih =>
    rcases Nat.lt_or_ge pre.length tr.length with hlt | hge
    · obtain ⟨post', rfl⟩ : ∃ post', tr = pre ++ e :: post' := by
        have h1 : tr = (tr ++ es).take tr.length := by simp
        rw [htr, List.take_append, List.take_of_length_le (by omega)] at h1
        obtain ⟨n, hn⟩ : ∃ n, tr.length - pre.length = n + 1 := ⟨tr.length - pre.length - 1, by omega⟩
        rw [hn, List.take_succ_cons] at h1
        exact ⟨_, h1⟩
      exact ih rfl
    · have h1 : pre = tr ++ pre.drop tr.length := by
        have : tr = pre.take tr.length := by
          have := congrArg (List.take tr.length) htr
          rw [List.take_left, List.take_append_of_le_length hge] at this
          exact this
        conv => lhs; rw [← List.take_append_drop tr.length pre]
        rw [← this]
      generalize pre.drop tr.length = q at h1
      subst h1
      rw [List.append_assoc, List.append_cancel_left_eq] at htr
      subst htr
      exact ⟨s, tr, a, s', q, post, hex, hs, rfl⟩

theorem step_admitted {H : Hash} {s s' : State} {a : Action} {es0 es1 : List Event} {i : Nat} {k : RequestKey}
    (h : step H s a = some (s', es0 ++ .admitted i k :: es1)) :
    es0 = [] ∧ ∃ t p, s.tasks[i]? = some t ∧ t.phase = .checked p k := by
  cases a <;> simp only [step, acquire] at h <;> (repeat' split at h) <;>
    first
    | (cases h; done)
    | (simp only [Option.some.injEq, Prod.mk.injEq] at h
       rcases es0 with _ | ⟨x, _ | ⟨y, es0⟩⟩ <;> simp at h
       try (obtain ⟨_, ⟨rfl, rfl⟩, _⟩ := h
            exact ⟨rfl, _, _, ‹_›, ‹_›⟩))

theorem step_duplicate {H : Hash} {s s' : State} {a : Action} {es0 es1 : List Event} {i : Nat} {k : RequestKey}
    (h : step H s a = some (s', es0 ++ .duplicate i k :: es1)) :
    es0 = [] ∧ k ∈ s.undergoing ∧ ∃ t p, s.tasks[i]? = some t ∧ t.phase = .locked p k := by
  cases a <;> simp only [step, acquire] at h <;> (repeat' split at h) <;>
    first
    | (cases h; done)
    | (simp only [Option.some.injEq, Prod.mk.injEq] at h
       rcases es0 with _ | ⟨x, _ | ⟨y, es0⟩⟩ <;> simp at h
       try (obtain ⟨_, ⟨rfl, rfl⟩, _⟩ := h
            exact ⟨rfl, ‹_›, _, _, ‹_›, ‹_›⟩))

/-- Performs a list of actions. -/
def Server.execute (H : Hash) : State → List Action → Option (State × List Event)
  | s, [] => some (s, [])
  | s, a :: as =>
    match step H s a with
    | none => none
    | some (s', es) =>
      match Server.execute H s' as with
      | none => none
      | some (s'', es') => some (s'', es ++ es')

theorem execute_steps {H : Hash} : ∀ (as : List Action) (s s' : State) (es : List Event),
    execute H s as = some (s', es) → Steps H s as s' es
  | [], s, s', es, h => by
    obtain ⟨rfl, rfl⟩ := Prod.mk.inj (Option.some.inj h)
    exact .nil s
  | a :: as, s, s', es, h => by
    simp only [execute] at h
    split at h
    · cases h
    · rename_i s1 es1 h1
      split at h
      · cases h
      · rename_i s2 es2 h2
        obtain ⟨rfl, rfl⟩ := Prod.mk.inj (Option.some.inj h)
        exact .cons _ _ _ _ _ _ _ h1 (execute_steps as s1 s2 es2 h2)

theorem exec_steps {H : Hash} {s s' : State} {as : List Action} {tr es : List Event} (h : Exec H s tr)
    (hs : Steps H s as s' es) : Exec H s' (tr ++ es) := by
  induction hs generalizing tr with
  | nil => rw [List.append_nil]; exact h
  | cons s s' s'' a as es es' h1 _ ih =>
    rw [← List.append_assoc]
    exact ih (.step _ _ _ _ _ h h1)

/-- A concrete execution: two requests with the same key and one with another, the first is handled, the second
is dropped, the third panics. -/
def demoActions : List Action :=
  let d : Bytes := [1, 7, 0, 20, 0, 1, 2, 3, 4, 5, 6, 7, 8, 9, 10, 11, 12, 13, 14, 15]
  let d' : Bytes := [1, 8, 0, 20, 0, 1, 2, 3, 4, 5, 6, 7, 8, 9, 10, 11, 12, 13, 14, 15]
  let a : SocketAddr := .v4 ⟨10, 0, 0, 1⟩ 5000
  [.run, .recv d a (some a), .recv d a (some a), .recv d' a (some a),
   .secret 1 (.ok [1]), .secret 0 (.ok [1]), .secret 2 (.ok [1]),
   .lock 0, .check 0, .insert 0, .lock 1, .invoke 0, .check 1, .lock 2, .check 2, .insert 2, .invoke 2, .handlerEnds 0 .err,
   .handlerEnds 2 .panic, .shutdown, .lockAgain 0, .remove 0]

theorem demo_exec : ∃ s tr, Exec Md5.md5 s tr ∧ s.undergoing = [⟨"10.0.0.1:5000", 8⟩] ∧
    tr.map taskOf = [none, some 0, some 1, some 2, some 1, some 0, some 2, some 0, some 0, some 1, some 2,
      some 2, some 0, some 2, none, some 0] ∧
    .duplicate 1 ⟨"10.0.0.1:5000", 7⟩ ∈ tr ∧ .ended 2 .panic ∈ tr ∧ .ended 0 .err ∈ tr ∧
    .released 0 ⟨"10.0.0.1:5000", 7⟩ ∈ tr := by
  have key : (match execute Md5.md5 listen demoActions with
    | some (s, tr) => decide (s.undergoing = [⟨"10.0.0.1:5000", 8⟩] ∧
        tr.map taskOf = [none, some 0, some 1, some 2, some 1, some 0, some 2, some 0, some 0, some 1, some 2,
          some 2, some 0, some 2, none, some 0] ∧
        .duplicate 1 ⟨"10.0.0.1:5000", 7⟩ ∈ tr ∧ .ended 2 .panic ∈ tr ∧ .ended 0 .err ∈ tr ∧
        .released 0 ⟨"10.0.0.1:5000", 7⟩ ∈ tr)
    | none => false) = true := by decide +kernel
  split at key
  · rename_i s tr h
    exact ⟨s, tr, by simpa using exec_steps .init (execute_steps _ _ _ _ h), of_decide_eq_true key⟩
  · cases key

/-! ### C37, C42, C43: what reaches the handler -/

/-- Everything that precedes a handler invocation. -/
theorem started_facts {H : Hash} {s : State} {tr : List Event} (h : Exec H s tr) {i : Nat} {r : Request}
    (hs : .started i r ∈ tr) :
    ∃ pre d post secret rest, tr = pre ++ .received i d r.remoteAddr r.localAddr :: post ∧
      Acceptable H (skipAfter pre) (d.take (bufferSizeAfter pre)) secret r.packet ∧
      eventsOf i pre = [] ∧
      eventsOf i post = .secret i r.remoteAddr (.ok secret) :: .admitted i (keyOf r.remoteAddr r.packet) ::
        .started i r :: rest ∧
      (rest = [] ∨ rest = [.ended i .panic] ∨ (∃ o, o ≠ .panic ∧ rest = [.ended i o]) ∨
        ∃ o, o ≠ .panic ∧ rest = [.ended i o, .released i (keyOf r.remoteAddr r.packet)]) := by
  obtain ⟨pre, d, rem, loc, post, htr⟩ := received_of_event h hs rfl
  obtain ⟨t, rest, _, _, _, _, _, h1, h2, h3, h4⟩ := task_facts h htr
  have hm : (.started i r : Event) ∈ rest := by
    have := (mem_eventsOf (tr := tr) (i := i) rfl).2 hs
    rw [h1] at this
    simpa using this
  generalize t.phase = ph at h4
  cases h4 with
  | handling secret p hacc =>
    simp at hm; subst hm
    exact ⟨pre, d, post, _, [], htr, hacc, h2, h3, .inl rfl⟩
  | handlerPanic secret p hacc =>
    simp at hm; subst hm
    exact ⟨pre, d, post, _, _, htr, hacc, h2, h3, .inr (.inl rfl)⟩
  | returned secret p o hacc ho =>
    simp at hm; subst hm
    exact ⟨pre, d, post, _, _, htr, hacc, h2, h3, .inr (.inr (.inl ⟨o, ho, rfl⟩))⟩
  | lockedAgain secret p o hacc ho =>
    simp at hm; subst hm
    exact ⟨pre, d, post, _, _, htr, hacc, h2, h3, .inr (.inr (.inl ⟨o, ho, rfl⟩))⟩
  | released secret p o hacc ho =>
    simp at hm; subst hm
    exact ⟨pre, d, post, _, _, htr, hacc, h2, h3, .inr (.inr (.inr ⟨o, ho, rfl⟩))⟩
  | _ => simp at hm

/-- **C37** Every handler invocation is for a datagram received before; the request holds the address it came
from, the local address of the socket, and the packet decoded from it under the non-empty secret that the provider
returned when asked for the address it came from; unless validation is switched off the datagram is an authentic
request. -/
theorem C37_handlers_see_validated_requests {H : Hash} {s : State} {tr : List Event} (h : Exec H s tr) (i : Nat)
    (r : Request) (hs : .started i r ∈ tr) :
    ∃ pre d post secret, tr = pre ++ .received i d r.remoteAddr r.localAddr :: post ∧
      (∃ a b, post = a ++ .started i r :: b ∧ .secret i r.remoteAddr (.ok secret) ∈ a) ∧
      secret ≠ [] ∧ Packet.decode (d.take (bufferSizeAfter pre)) secret = .ok r.packet ∧
      (skipAfter pre = false →
        Packet.isAuthenticRequest H (d.take (bufferSizeAfter pre)) secret = .ok true) := by
  obtain ⟨pre, d, post, secret, rest, h1, h2, _, h4, _⟩ := started_facts h hs
  refine ⟨pre, d, post, secret, h1, ?_, h2⟩
  have hm : (.started i r : Event) ∈ post := by
    rw [← mem_eventsOf (i := i) rfl, h4]; simp
  obtain ⟨a, b, rfl⟩ := List.append_of_mem hm
  refine ⟨a, b, rfl, ?_⟩
  rw [← mem_eventsOf (i := i) rfl]
  rw [eventsOf_append] at h4
  have e : eventsOf i (Event.started i r :: b) = .started i r :: eventsOf i b := by simp [eventsOf, taskOf]
  rw [e] at h4
  cases ha : eventsOf i a with
  | nil => rw [ha] at h4; simp at h4
  | cons x xs => rw [ha] at h4; simp at h4; rw [h4.1]; simp

/-- **C42** Each received datagram leads to at most one handler invocation, and handler invocations belong to
distinct received datagrams: per task at most one `received` and at most as many `started`. -/
theorem C42_handled_at_most_once {H : Hash} {s : State} {tr : List Event} (h : Exec H s tr) (i : Nat) :
    (tr.filter (fun e => match e with | .received j .. => j = i | _ => false)).length ≤ 1 ∧
    (tr.filter (fun e => match e with | .started j _ => j = i | _ => false)).length ≤
      (tr.filter (fun e => match e with | .received j .. => j = i | _ => false)).length := by
  have sub : ∀ f : Event → Bool, (∀ e, f e = true → taskOf e = some i) →
      tr.filter f = (eventsOf i tr).filter f := by
    intro f hf
    unfold eventsOf
    rw [List.filter_filter]
    apply List.filter_congr
    intro e _
    cases hfe : f e with
    | false => simp
    | true => simp [hf e hfe]
  rw [sub (fun e => match e with | .received j .. => j = i | _ => false)
      (by intro e he; cases e <;> simp_all [taskOf]),
    sub (fun e => match e with | .started j _ => j = i | _ => false)
      (by intro e he; cases e <;> simp_all [taskOf])]
  have inv := exec_inv h
  rcases Nat.lt_or_ge i s.tasks.length with hi | hi
  · obtain ⟨d, pre, post, rest, h1, h2, h3, h4, h5, h6⟩ := inv.task i _ (List.getElem?_eq_getElem hi)
    rw [h5]
    generalize (s.tasks[i]).phase = ph at h6
    cases h6 <;> simp
  · rw [inv.fresh i hi]; simp

/-- The length field of a datagram that is cut to `n` bytes and decoded. -/
theorem headerLength_of_decode {d secret : Bytes} {n : Nat} {p : Packet}
    (h : Packet.decode (d.take n) secret = .ok p) : headerLength d ≤ n := by
  obtain ⟨c, hi, lo, body, padding, he, ha, _, hl, _⟩ := decode_ok_elim _ _ _ h
  have hlen := congrArg List.length he
  simp at hlen
  have hh : headerLength (d.take n) = hi.toNat * 256 + lo.toNat := by
    rw [he]; rfl
  have : headerLength (d.take n) = headerLength d := by
    unfold headerLength
    simp [List.getD_eq_getElem?_getD, List.getElem?_take]
    rw [if_pos (by omega), if_pos (by omega)]
  omega

/-- **C43** A datagram that fits into the receive buffer is processed on exactly its bytes, whatever was
received before; a handler never runs for a datagram whose length field exceeds the buffer. -/
theorem C43_buffer_size {H : Hash} {s : State} {tr pre post : List Event} (h : Exec H s tr) (i : Nat) (d : Bytes)
    (rem loc : SocketAddr) (r : Request) (htr : tr = pre ++ .received i d rem loc :: post) (hs : .started i r ∈ tr) :
    headerLength d ≤ bufferSizeAfter pre ∧
    (d.length ≤ bufferSizeAfter pre → ∃ secret, .secret i rem (.ok secret) ∈ post ∧
      Packet.decode d secret = .ok r.packet ∧
      (skipAfter pre = false → Packet.isAuthenticRequest H d secret = .ok true)) := by
  obtain ⟨pre', d', post', secret, rest, h1, h2, h3, h4, _⟩ := started_facts h hs
  obtain ⟨_, _, _, _, _, _, _, _, h5, _, _⟩ := task_facts h htr
  have noev : ∀ p, eventsOf i p = [] → ∀ e ∈ p, ¬ (taskOf e = some i) := by
    intro p hp e he hte
    have := (mem_eventsOf (tr := p) hte).2 he
    rw [hp] at this; cases this
  obtain ⟨rfl, he, rfl⟩ := split_unique (fun e => taskOf e = some i) (htr.symm.trans h1) rfl rfl
    (noev pre h5) (noev pre' h3)
  injection he with _ hd hr _
  subst hd hr
  refine ⟨headerLength_of_decode h2.2.1, fun hl => ⟨secret, ?_, ?_⟩⟩
  · rw [← mem_eventsOf (i := i) rfl, h4]; simp
  · rw [List.take_of_length_le hl] at h2; exact h2.2

/-! ### C36, C38: the duplicate check -/

/-- Two running handlers have different keys. -/
theorem one_handler_per_text {H : Hash} {s : State} {tr : List Event} (h : Exec H s tr) (i j : Nat)
    (r r' : Request) (hi : .started i r ∈ tr) (hi' : ∀ o, .ended i o ∉ tr) (hj : .started j r' ∈ tr)
    (hj' : ∀ o, .ended j o ∉ tr) (ha : r.remoteAddr.display = r'.remoteAddr.display)
    (hid : r.packet.identifier = r'.packet.identifier) : i = j := by
  have key : ∀ i r, .started i r ∈ tr → (∀ o, .ended i o ∉ tr) →
      heldBy tr i ⟨r.remoteAddr.display, r.packet.identifier⟩ := by
    intro i r hs hn
    obtain ⟨pre, d, post, secret, rest, h1, h2, h3, h4, h5⟩ := started_facts h hs
    have hev : eventsOf i tr = .received i d r.remoteAddr r.localAddr :: eventsOf i post := by
      rw [h1, eventsOf_append, h3]; simp [eventsOf, taskOf]
    have hr : rest = [] := by
      have hno : ∀ o, .ended i o ∉ rest := by
        intro o ho
        apply hn o
        rw [← mem_eventsOf (i := i) rfl, hev, h4]; simp [ho]
      rcases h5 with h5 | h5 | ⟨o, _, h5⟩ | ⟨o, _, h5⟩
      · exact h5
      · exact absurd (by rw [h5]; simp) (hno .panic)
      · exact absurd (by rw [h5]; simp) (hno o)
      · exact absurd (by rw [h5]; simp) (hno o)
    rw [heldBy_iff, hev, h4, hr]
    simp [keyOf]
  have h1 := key i r hi hi'
  have h2 := key j r' hj hj'
  rw [ha, hid] at h1
  exact (exec_inv h).keys.2 i j _ h1 h2

/-- **C36** At the end of every execution at most one handler is running for an address and identifier. As every
execution is extended step by step, this holds at any time. -/
theorem C36_one_handler_per_key {H : Hash} {s : State} {tr : List Event} (h : Exec H s tr) (i j : Nat)
    (r r' : Request) (hi : .started i r ∈ tr) (hi' : ∀ o, .ended i o ∉ tr) (hj : .started j r' ∈ tr)
    (hj' : ∀ o, .ended j o ∉ tr) (ha : r.remoteAddr = r'.remoteAddr)
    (hid : r.packet.identifier = r'.packet.identifier) : i = j :=
  one_handler_per_text h i j r r' hi hi' hj hj' (by rw [ha]) hid

/-- **C38** The duplicate check drops a request exactly when its key is held: at the moment of a `duplicate` event
another request with the same key is admitted and not released, at the moment of an `admitted` event none is. -/
theorem C38_duplicate_check {H : Hash} {s : State} {tr pre post : List Event} (h : Exec H s tr) (i : Nat)
    (k : RequestKey) :
    (tr = pre ++ .duplicate i k :: post → ∃ j, j ≠ i ∧ heldBy pre j k) ∧
    (tr = pre ++ .admitted i k :: post → ∀ j, ¬ heldBy pre j k) := by
  constructor
  · intro htr
    obtain ⟨s0, tr0, a, s1, es0, es1, hex, hst, hpre⟩ := exec_split h htr
    obtain ⟨rfl, hk, t, p, ht, hph⟩ := step_duplicate hst
    rw [List.append_nil] at hpre
    subst hpre
    have inv := exec_inv hex
    obtain ⟨j, hj⟩ := (inv.keys.1 k).1 hk
    refine ⟨j, ?_, hj⟩
    rintro rfl
    obtain ⟨d, pre', post', rest, _, _, _, _, h5, h6⟩ := inv.task j t ht
    rw [heldBy_iff, h5] at hj
    rw [hph] at h6
    cases h6
    simp at hj
  · intro htr j hj
    obtain ⟨s0, tr0, a, s1, es0, es1, hex, hst, hpre⟩ := exec_split h htr
    obtain ⟨rfl, t, p, ht, hph⟩ := step_admitted hst
    rw [List.append_nil] at hpre
    subst hpre
    exact (exec_inv hex).free i t p k ht hph (((exec_inv hex).keys.1 k).2 ⟨j, hj⟩)

/-- **C38** The key of an admitted or dropped request is made of its address and identifier. -/
theorem C38_keys {H : Hash} {s : State} {tr pre post : List Event} (h : Exec H s tr) (i : Nat) (d : Bytes)
    (rem loc : SocketAddr) (k : RequestKey) (htr : tr = pre ++ .received i d rem loc :: post)
    (hk : .admitted i k ∈ tr ∨ .duplicate i k ∈ tr) :
    ∃ secret p, .secret i rem (.ok secret) ∈ tr ∧
      Acceptable H (skipAfter pre) (d.take (bufferSizeAfter pre)) secret p ∧ k = ⟨rem.display, p.identifier⟩ := by
  obtain ⟨t, rest, _, _, _, _, _, h1, _, _, h4⟩ := task_facts h htr
  have hk' : .admitted i k ∈ rest ∨ .duplicate i k ∈ rest := by
    rcases hk with hk | hk
    · rw [← mem_eventsOf (i := i) rfl, h1] at hk; simp at hk; exact .inl hk
    · rw [← mem_eventsOf (i := i) rfl, h1] at hk; simp at hk; exact .inr hk
  have hsec : ∀ sec, .secret i rem (.ok sec) ∈ rest → .secret i rem (.ok sec) ∈ tr := by
    intro sec hm
    rw [← mem_eventsOf (i := i) rfl, h1]; simp [hm]
  generalize t.phase = ph at h4
  cases h4 <;> simp at hk' <;> exact ⟨_, _, hsec _ (.head _), by assumption, hk'⟩

/-- **C38** A request that passes validation is never rejected for another reason than a duplicate. -/
theorem C38_valid_not_rejected {H : Hash} {s : State} {tr pre post : List Event} (h : Exec H s tr) (i : Nat)
    (d secret : Bytes) (rem loc : SocketAddr) (p : Packet) (htr : tr = pre ++ .received i d rem loc :: post)
    (hsec : .secret i rem (.ok secret) ∈ tr)
    (hacc : Acceptable H (skipAfter pre) (d.take (bufferSizeAfter pre)) secret p) :
    .rejected i ∉ tr ∧ .crashed i ∉ tr := by
  obtain ⟨t, rest, _, _, _, _, _, h1, _, _, h4⟩ := task_facts h htr
  rw [← mem_eventsOf (i := i) rfl, h1] at hsec
  rw [← mem_eventsOf (i := i) rfl, ← mem_eventsOf (e := .crashed i) (i := i) rfl, h1]
  generalize t.phase = ph at h4
  cases h4 with
  | rejected ans _ hno => simp at hsec; exact absurd hacc (hno secret p hsec.symm)
  | _ => simp at hsec ⊢

/-! ### C39, C41: progress -/

/-- Actions that neither wait for the environment nor for the handler. -/
def internal : Action → Bool
  | .lock _ | .check _ | .insert _ | .invoke _ | .lockAgain _ | .remove _ => true
  | _ => false

/-- Internal steps a task has still to do before it waits for the environment or is over. -/
def pending : Phase → Nat
  | .waiting .. => 4
  | .locked .. => 3
  | .checked .. => 2
  | .admitted .. => 1
  | .returned .. => 2
  | .lockedAgain .. => 1
  | _ => 0

def pendingSteps (s : State) : Nat := (s.tasks.map (fun t => pending t.phase)).sum

theorem sum_modify (f : Task → Nat) (g : Task → Task) : ∀ (l : List Task) (i : Nat) (t : Task), l[i]? = some t →
    ((l.modify i g).map f).sum + f t = (l.map f).sum + f (g t)
  | [], i, t, h => by simp at h
  | x :: l, 0, t, h => by
    simp at h; subst h
    simp; omega
  | x :: l, i + 1, t, h => by
    simp at h
    have := sum_modify f g l i t h
    simp [List.modify_succ_cons]; omega

theorem pendingSteps_setPhase {s s' : State} {i : Nat} {t : Task} (ph : Phase) (ht : s.tasks[i]? = some t)
    (hs : s'.tasks = (setPhase s i ph).tasks) :
    pendingSteps s' + pending t.phase = pendingSteps s + pending ph := by
  unfold pendingSteps
  rw [hs]
  exact sum_modify (fun t => pending t.phase) (fun t => { t with phase := ph }) s.tasks i t ht

theorem crash_tasks (s : State) (i : Nat) : (crash s i).tasks = (setPhase s i .crashed).tasks := by
  unfold crash; dsimp only; split <;> rfl

theorem pending_lt {s s' : State} {i : Nat} {t : Task} (ph : Phase) (ht : s.tasks[i]? = some t)
    (hs : s'.tasks = (setPhase s i ph).tasks) (h : pending ph < pending t.phase) :
    pendingSteps s' < pendingSteps s := by
  have := pendingSteps_setPhase ph ht hs
  omega

/-- Every internal action uses up one of the pending steps. -/
theorem internal_decreases {H : Hash} {s s' : State} {a : Action} {es : List Event} (ha : internal a = true)
    (h : step H s a = some (s', es)) : pendingSteps s' < pendingSteps s := by
  cases a <;> simp only [internal] at ha <;> first | (cases ha; done) | skip
  case lock i =>
    simp only [step] at h
    split at h
    · rename_i t ht
      split at h
      · rename_i p k hph
        unfold acquire at h
        split at h
        · cases h
        · split at h
          · obtain ⟨rfl, rfl⟩ := Prod.mk.inj (Option.some.inj h)
            exact pending_lt .crashed ht (crash_tasks s i) (by rw [hph]; simp [pending])
          · obtain ⟨rfl, rfl⟩ := Prod.mk.inj (Option.some.inj h)
            exact pending_lt (.locked p k) ht rfl (by rw [hph]; simp [pending])
      · cases h
    · cases h
  case check i =>
    simp only [step] at h
    split at h
    · rename_i t ht
      split at h
      · rename_i p k hph
        split at h
        · obtain ⟨rfl, rfl⟩ := Prod.mk.inj (Option.some.inj h)
          exact pending_lt .finished ht rfl (by rw [hph]; simp [pending])
        · obtain ⟨rfl, rfl⟩ := Prod.mk.inj (Option.some.inj h)
          exact pending_lt (.checked p k) ht rfl (by rw [hph]; simp [pending])
      · cases h
    · cases h
  case insert i =>
    simp only [step] at h
    split at h
    · rename_i t ht
      split at h
      · rename_i p k hph
        obtain ⟨rfl, rfl⟩ := Prod.mk.inj (Option.some.inj h)
        exact pending_lt (.admitted p k) ht rfl (by rw [hph]; simp [pending])
      · cases h
    · cases h
  case invoke i =>
    simp only [step] at h
    split at h
    · rename_i t ht
      split at h
      · rename_i p k hph
        obtain ⟨rfl, rfl⟩ := Prod.mk.inj (Option.some.inj h)
        exact pending_lt (.handling p k) ht rfl (by rw [hph]; simp [pending])
      · cases h
    · cases h
  case lockAgain i =>
    simp only [step] at h
    split at h
    · rename_i t ht
      split at h
      · rename_i k hph
        unfold acquire at h
        split at h
        · cases h
        · split at h
          · obtain ⟨rfl, rfl⟩ := Prod.mk.inj (Option.some.inj h)
            exact pending_lt .crashed ht (crash_tasks s i) (by rw [hph]; simp [pending])
          · obtain ⟨rfl, rfl⟩ := Prod.mk.inj (Option.some.inj h)
            exact pending_lt (.lockedAgain k) ht rfl (by rw [hph]; simp [pending])
      · cases h
    · cases h
  case remove i =>
    simp only [step] at h
    split at h
    · rename_i t ht
      split at h
      · rename_i k hph
        obtain ⟨rfl, rfl⟩ := Prod.mk.inj (Option.some.inj h)
        exact pending_lt .finished ht rfl (by rw [hph]; simp [pending])
      · cases h
    · cases h

theorem exists_pending {s : State} (h : 0 < pendingSteps s) :
    ∃ (i : Nat) (t : Task), s.tasks[i]? = some t ∧ 0 < pending t.phase := by
  apply Classical.byContradiction
  intro hn
  have : ∀ t ∈ s.tasks, pending t.phase = 0 := by
    intro t ht
    obtain ⟨i, hi⟩ := List.mem_iff_getElem?.1 ht
    apply Classical.byContradiction
    intro hp
    exact hn ⟨i, t, hi, by omega⟩
  have h0 : pendingSteps s = 0 := by
    unfold pendingSteps
    revert this
    generalize s.tasks = l
    intro this
    induction l with
    | nil => rfl
    | cons x l ih =>
      simp only [List.map_cons, List.sum_cons]
      rw [this x (by simp), ih (fun t ht => this t (by simp [ht]))]
  omega

theorem pending_le (s : State) (i : Nat) (t : Task) (ht : s.tasks[i]? = some t) :
    pending t.phase ≤ pendingSteps s := by
  have := pendingSteps_setPhase (s' := setPhase s i .finished) .finished ht rfl
  have e : pending .finished = 0 := rfl
  omega

/-- **C41** In every reachable state the lock is not poisoned, and if some task is neither over nor waiting for the
secret provider or its handler, then some task can take an internal step: there is no deadlock. -/
theorem C41_no_deadlock {H : Hash} {s : State} {tr : List Event} (h : Exec H s tr) :
    s.lock.poisoned = false ∧ (∀ i, .crashed i ∈ tr → ∃ rem, .secret i rem .panic ∈ tr) ∧
    ((∃ (i : Nat) (t : Task), s.tasks[i]? = some t ∧ (match t.phase with
        | .spawned | .handling .. | .finished | .crashed => False
        | _ => True)) →
      ∃ a, internal a = true ∧ (step H s a).isSome = true) := by
  have inv := exec_inv h
  refine ⟨inv.lock.1, ?_, ?_⟩
  · intro i hc
    obtain ⟨pre, d, rem, loc, post, htr⟩ := received_of_event h hc rfl
    obtain ⟨t, rest, _, _, _, _, _, h1, _, _, h4⟩ := task_facts h htr
    refine ⟨rem, ?_⟩
    rw [← mem_eventsOf (i := i) rfl, h1] at hc ⊢
    generalize t.phase = ph at h4
    cases h4 <;> simp at hc ⊢
  · rintro ⟨i, t, ht, hp⟩
    cases ho : s.lock.owner with
    | some j =>
      obtain ⟨u, hu, hown⟩ := (inv.lock.2 j).1 ho
      cases hph : u.phase <;> rw [hph] at hown <;> simp [Phase.owns] at hown
      · rename_i p k
        exact ⟨.check j, rfl, by simp only [step, hu, hph]; split <;> rfl⟩
      · exact ⟨.insert j, rfl, by simp only [step, hu, hph]; rfl⟩
      · exact ⟨.remove j, rfl, by simp only [step, hu, hph]; rfl⟩
    | none =>
      have noOwner : t.phase.owns = false := by
        cases hw : t.phase.owns with
        | false => rfl
        | true => rw [(inv.lock.2 i).2 ⟨t, ht, hw⟩] at ho; cases ho
      cases hph : t.phase <;> rw [hph] at hp noOwner <;> simp [Phase.owns] at hp noOwner
      · exact ⟨.lock i, rfl, by simp [step, ht, hph, acquire, ho, inv.lock.1]⟩
      · exact ⟨.invoke i, rfl, by simp [step, ht, hph]⟩
      · exact ⟨.lockAgain i, rfl, by simp [step, ht, hph, acquire, ho, inv.lock.1]⟩

/-- **C41** There is no livelock either: internal steps cannot go on for ever, at most four per task. -/
theorem C41_no_livelock {H : Hash} {s s' : State} {as : List Action} {es : List Event}
    (hs : Steps H s as s' es) (ha : ∀ a ∈ as, internal a = true) : as.length ≤ 4 * s.tasks.length := by
  have key : as.length + pendingSteps s' ≤ pendingSteps s := by
    induction hs with
    | nil => simp
    | cons s s' s'' a as es es' h1 _ ih =>
      have := internal_decreases (ha a (by simp)) h1
      have := ih (fun b hb => ha b (by simp [hb]))
      simp only [List.length_cons]; omega
  have : pendingSteps s ≤ 4 * s.tasks.length := by
    unfold pendingSteps
    generalize s.tasks = l
    induction l with
    | nil => simp
    | cons t l ih =>
      have : pending t.phase ≤ 4 := by cases t.phase <;> simp [pending]
      simp only [List.map_cons, List.sum_cons, List.length_cons]; omega
  omega

/-- Internal steps lead to a state where every task is over or waits for provider or handler. -/
theorem drain {H : Hash} : ∀ (n : Nat) {s : State} {tr : List Event}, Exec H s tr → pendingSteps s ≤ n →
    ∃ as s' es, (∀ a ∈ as, internal a = true) ∧ Steps H s as s' es ∧ pendingSteps s' = 0
  | 0, s, _, _, hn => ⟨[], s, [], by simp, .nil s, by omega⟩
  | n + 1, s, tr, h, hn => by
    by_cases h0 : pendingSteps s = 0
    · exact ⟨[], s, [], by simp, .nil s, h0⟩
    · obtain ⟨i, t, ht, hp⟩ := exists_pending (by omega : 0 < pendingSteps s)
      obtain ⟨a, ha, hst⟩ := (C41_no_deadlock h).2.2 ⟨i, t, ht, by
        cases hph : t.phase <;> rw [hph] at hp <;> simp [pending] at hp ⊢⟩
      obtain ⟨⟨s', es⟩, hst⟩ := Option.isSome_iff_exists.1 hst
      have := internal_decreases ha hst
      obtain ⟨as, s'', es', h1, h2, h3⟩ := drain n (.step _ _ _ _ _ h hst) (by omega)
      refine ⟨a :: as, s'', es ++ es', ?_, .cons _ _ _ _ _ _ _ hst h2, h3⟩
      intro b hb
      rcases List.mem_cons.1 hb with rfl | hb
      · exact ha
      · exact h1 b hb

/-- No task is left with an internal step to do when no internal step is possible. -/
theorem quiescent {H : Hash} {s : State} {tr : List Event} (h : Exec H s tr)
    (hq : ∀ a, internal a = true → step H s a = none) : pendingSteps s = 0 := by
  apply Classical.byContradiction
  intro h0
  obtain ⟨i, t, ht, hp⟩ := exists_pending (by omega : 0 < pendingSteps s)
  obtain ⟨a, ha, hst⟩ := (C41_no_deadlock h).2.2 ⟨i, t, ht, by
    cases hph : t.phase <;> rw [hph] at hp <;> simp [pending] at hp ⊢⟩
  rw [hq a ha] at hst; cases hst

theorem quiet_of_no_pending {H : Hash} {s : State} (h0 : pendingSteps s = 0) (a : Action) (ha : internal a = true) :
    step H s a = none := by
  cases hst : step H s a with
  | none => rfl
  | some r =>
    have := internal_decreases ha (s' := r.1) (es := r.2) hst
    omega

/-- **C38** A request that passes validation gets to its handler or is dropped as a duplicate whatever the scheduler
does: in every execution that goes on, with any environment actions and any interleaving, to a state in which no
internal step is left to do. -/
theorem C38_every_schedule {H : Hash} {s s' : State} {tr pre post es : List Event} {as : List Action} (h : Exec H s tr)
    (i : Nat) (d secret : Bytes) (rem loc : SocketAddr) (p : Packet)
    (htr : tr = pre ++ .received i d rem loc :: post) (hsec : .secret i rem (.ok secret) ∈ tr)
    (hacc : Acceptable H (skipAfter pre) (d.take (bufferSizeAfter pre)) secret p) (hst : Steps H s as s' es)
    (hq : ∀ a, internal a = true → step H s' a = none) :
    .duplicate i ⟨rem.display, p.identifier⟩ ∈ tr ++ es ∨ .started i ⟨loc, rem, p⟩ ∈ tr ++ es := by
  have h0 := quiescent (exec_steps h hst) hq
  have h' := exec_steps h hst
  have htr' : tr ++ es = pre ++ .received i d rem loc :: (post ++ es) := by rw [htr]; simp
  obtain ⟨t, rest, ht, _, _, _, _, h1, _, _, h4⟩ := task_facts h' htr'
  have hp := pending_le s' i t ht
  have hm : .secret i rem (.ok secret) ∈ rest := by
    have : .secret i rem (.ok secret) ∈ tr ++ es := List.mem_append_left _ hsec
    rw [← mem_eventsOf (i := i) rfl, h1] at this
    simpa using this
  have hpkt : ∀ sec q, secret = sec → Acceptable H (skipAfter pre) (d.take (bufferSizeAfter pre)) sec q → q = p := by
    intro sec q e hq
    subst e
    have := hq.2.1.symm.trans hacc.2.1
    exact Out.ok.inj this
  rw [← mem_eventsOf (i := i) rfl, h1]
  have hst' : ∀ loc, .started i ⟨loc, rem, p⟩ ∈ rest → .started i ⟨loc, rem, p⟩ ∈ tr ++ es := by
    intro loc hl
    rw [← mem_eventsOf (i := i) rfl, h1]; simp [hl]
  generalize t.phase = ph at h4 hp
  cases h4 with
  | spawned => simp at hm
  | providerPanic => simp at hm
  | rejected ans _ hno => simp at hm; exact absurd hacc (hno secret p hm.symm)
  | waiting sec q hq => simp only [pending] at hp; omega
  | locked sec q hq => simp only [pending] at hp; omega
  | checked sec q hq => simp only [pending] at hp; omega
  | admitted sec q hq => simp only [pending] at hp; omega
  | returned sec q o hq => simp only [pending] at hp; omega
  | lockedAgain sec q o hq => simp only [pending] at hp; omega
  | duplicate sec q hq =>
    simp at hm
    obtain rfl := hpkt sec q hm hq
    left; simp [keyOf]
  | handling sec q hq =>
    simp at hm
    obtain rfl := hpkt sec q hm hq
    exact .inr (hst' _ (.tail _ (.tail _ (.head _))))
  | handlerPanic sec q hq =>
    simp at hm
    obtain rfl := hpkt sec q hm hq
    exact .inr (hst' _ (.tail _ (.tail _ (.head _))))
  | released sec q o hq =>
    simp at hm
    obtain rfl := hpkt sec q hm hq
    exact .inr (hst' _ (.tail _ (.tail _ (.head _))))

/-- **C38** A request that passes validation gets to its handler or is dropped as a duplicate, by internal steps
only; no environment action is needed. -/
theorem C38_valid_handled_or_duplicate {H : Hash} {s : State} {tr pre post : List Event} (h : Exec H s tr) (i : Nat)
    (d secret : Bytes) (rem loc : SocketAddr) (p : Packet) (htr : tr = pre ++ .received i d rem loc :: post)
    (hsec : .secret i rem (.ok secret) ∈ tr)
    (hacc : Acceptable H (skipAfter pre) (d.take (bufferSizeAfter pre)) secret p) :
    ∃ as s' es, (∀ a ∈ as, internal a = true) ∧ Steps H s as s' es ∧
      (.duplicate i ⟨rem.display, p.identifier⟩ ∈ tr ++ es ∨
       .started i ⟨loc, rem, p⟩ ∈ tr ++ es) := by
  obtain ⟨as, s', es, ha, hst, h0⟩ := drain _ h (Nat.le_refl _)
  exact ⟨as, s', es, ha, hst, C38_every_schedule h i d secret rem loc p htr hsec hacc hst (quiet_of_no_pending h0)⟩

/-- **C39** After a handler has returned, its key is released whatever the scheduler does: in every execution that goes
on to a state in which no internal step is left to do. -/
theorem C39_every_schedule {H : Hash} {s s' : State} {tr es : List Event} {as : List Action} (h : Exec H s tr) (i : Nat)
    (o : Outcome) (r : Request) (hs : .started i r ∈ tr) (he : .ended i o ∈ tr) (ho : o ≠ .panic)
    (hst : Steps H s as s' es) (hq : ∀ a, internal a = true → step H s' a = none) :
    .released i ⟨r.remoteAddr.display, r.packet.identifier⟩ ∈ tr ++ es := by
  have h0 := quiescent (exec_steps h hst) hq
  have h' := exec_steps h hst
  have hs' : .started i r ∈ tr ++ es := List.mem_append_left _ hs
  have he' : .ended i o ∈ tr ++ es := List.mem_append_left _ he
  obtain ⟨pre, d, rem, loc, post, htr'⟩ := received_of_event h' hs' rfl
  obtain ⟨t, rest, ht, _, _, _, _, h1, _, _, h4⟩ := task_facts h' htr'
  have hp := pending_le s' i t ht
  rw [← mem_eventsOf (i := i) rfl, h1] at hs' he' ⊢
  generalize t.phase = ph at h4 hp
  cases h4 with
  | waiting sec q hq => simp at hs'
  | locked sec q hq => simp at hs'
  | checked sec q hq => simp at hs'
  | admitted sec q hq => simp at hs'
  | returned sec q o hq => simp only [pending] at hp; omega
  | lockedAgain sec q o hq => simp only [pending] at hp; omega
  | spawned => simp at hs'
  | rejected => simp at hs'
  | providerPanic => simp at hs'
  | duplicate => simp at hs'
  | handling => simp at he'
  | handlerPanic => simp at he'; exact absurd he' ho
  | released sec q o hq =>
    simp at hs'
    subst hs'
    simp [keyOf]

/-- **C39** After a handler has returned, its key is released by internal steps alone. -/
theorem C39_released_after_return {H : Hash} {s : State} {tr : List Event} (h : Exec H s tr) (i : Nat) (o : Outcome)
    (r : Request) (hs : .started i r ∈ tr) (he : .ended i o ∈ tr) (ho : o ≠ .panic) :
    ∃ as s' es, (∀ a ∈ as, internal a = true) ∧ Steps H s as s' es ∧
      .released i ⟨r.remoteAddr.display, r.packet.identifier⟩ ∈ tr ++ es := by
  obtain ⟨as, s', es, ha, hst, h0⟩ := drain _ h (Nat.le_refl _)
  exact ⟨as, s', es, ha, hst, C39_every_schedule h i o r hs he ho hst (quiet_of_no_pending h0)⟩

/-- The hypotheses of the two `every_schedule` theorems: the execution `demoActions` ends in a state without internal
steps, and its first 18 actions lead to one where task 0 has been started and has ended and the rest goes on from
there. -/
example : ∃ s s' tr es as, Exec Md5.md5 s tr ∧ Steps Md5.md5 s as s' es ∧
    (∀ a, internal a = true → step Md5.md5 s' a = none) ∧ (∃ r, .started 0 r ∈ tr) ∧ .ended 0 .err ∈ tr ∧ es ≠ [] := by
  have key : (match execute Md5.md5 listen (demoActions.take 18) with
    | some (s, tr) => (match execute Md5.md5 s (demoActions.drop 18) with
      | some (s', es) => decide (pendingSteps s' = 0) && decide (.ended 0 .err ∈ tr) && decide (es ≠ []) &&
          tr.any (fun e => match e with | .started 0 _ => true | _ => false)
      | none => false)
    | none => false) = true := by decide +kernel
  split at key
  · rename_i s tr h
    split at key
    · rename_i s' es h'
      simp only [Bool.and_eq_true, decide_eq_true_eq, List.any_eq_true] at key
      obtain ⟨⟨⟨h0, h1⟩, h2⟩, e, he, hm⟩ := key
      refine ⟨s, s', tr, es, _, by simpa using exec_steps .init (execute_steps _ _ _ _ h), execute_steps _ _ _ _ h',
        quiet_of_no_pending h0, ?_, h1, h2⟩
      split at hm
      · exact ⟨_, he⟩
      · cases hm
    · cases key
  · cases key

theorem step_lock (H : Hash) (s : State) (i : Nat) (t : Task) (p : Packet) (k : RequestKey)
    (ht : s.tasks[i]? = some t) (hph : t.phase = .waiting p k) (ho : s.lock.owner = none)
    (hp : s.lock.poisoned = false) : step H s (.lock i) =
      some (setPhase { s with lock := { s.lock with owner := some i } } i (.locked p k), []) := by
  simp [step, ht, hph, acquire, ho, hp]

theorem step_check_free (H : Hash) (s : State) (i : Nat) (t : Task) (p : Packet) (k : RequestKey)
    (ht : s.tasks[i]? = some t) (hph : t.phase = .locked p k) (hk : k ∉ s.undergoing) :
    step H s (.check i) = some (setPhase s i (.checked p k), []) := by
  simp [step, ht, hph, hk]

theorem step_insert (H : Hash) (s : State) (i : Nat) (t : Task) (p : Packet) (k : RequestKey)
    (ht : s.tasks[i]? = some t) (hph : t.phase = .checked p k) :
    step H s (.insert i) = some (release (setPhase { s with undergoing := insertKey s.undergoing k } i
      (.admitted p k)), [.admitted i k]) := by
  simp [step, ht, hph]

theorem step_invoke (H : Hash) (s : State) (i : Nat) (t : Task) (p : Packet) (k : RequestKey)
    (ht : s.tasks[i]? = some t) (hph : t.phase = .admitted p k) : step H s (.invoke i) =
      some (setPhase s i (.handling p k), [.started i ⟨t.localAddr, t.remoteAddr, p⟩]) := by
  simp [step, ht, hph, Request.new]

/-- **C39** When every earlier request with the key has been released, the next valid one passes the check. -/
theorem C39_next_request_admitted {H : Hash} {s : State} {tr : List Event} (h : Exec H s tr) (i : Nat) (t : Task)
    (p : Packet) (k : RequestKey) (ht : s.tasks[i]? = some t) (hph : t.phase = .locked p k)
    (hfree : ∀ j, .admitted j k ∈ tr → .released j k ∈ tr) :
    ∃ s' s'', step H s (.check i) = some (s', []) ∧ step H s' (.insert i) = some (s'', [.admitted i k]) := by
  have hk : k ∉ s.undergoing := by
    intro hk
    obtain ⟨j, h1, h2⟩ := ((exec_inv h).keys.1 k).1 hk
    exact h2 (hfree j h1)
  refine ⟨_, _, step_check_free H s i t p k ht hph hk, step_insert H _ i { t with phase := .checked p k } p k ?_ rfl⟩
  rw [getElem?_setPhase, if_pos rfl, ht]; rfl

/-- **C39** Put together: in a state where `run()` is executing and the key is free, there is an execution that
receives an acceptable datagram for this key and starts its handler. -/
theorem C39_identifier_reusable {H : Hash} {s : State} {tr : List Event} (h : Exec H s tr) (d secret : Bytes)
    (rem loc : SocketAddr) (p : Packet) (hrun : runningAfter tr = true)
    (hacc : Acceptable H (skipAfter tr) (d.take (bufferSizeAfter tr)) secret p)
    (hfree : ∀ j, .admitted j ⟨rem.display, p.identifier⟩ ∈ tr → .released j ⟨rem.display, p.identifier⟩ ∈ tr)
    (hlock : s.lock.owner = none) :
    ∃ s', Steps H s [.recv d rem (some loc), .secret s.tasks.length (.ok secret), .lock s.tasks.length,
        .check s.tasks.length, .insert s.tasks.length, .invoke s.tasks.length] s'
      [.received s.tasks.length d rem loc, .secret s.tasks.length rem (.ok secret),
       .admitted s.tasks.length ⟨rem.display, p.identifier⟩, .started s.tasks.length ⟨loc, rem, p⟩] := by
  have inv := exec_inv h
  obtain ⟨buf, hbuf⟩ : ∃ buf, s.buf = some buf := by
    rw [← Option.isSome_iff_exists, inv.cfg.2.2.1]; exact hrun
  generalize hn : s.tasks.length = n
  -- reception
  obtain ⟨s1, h1⟩ : ∃ s1, step H s (.recv d rem (some loc)) = some (s1, [.received n d rem loc]) := by
    simp only [step, hbuf, hn]; exact ⟨_, rfl⟩
  have e1 : s1.tasks.length = n + 1 ∧ s1.lock = s.lock ∧ s1.undergoing = s.undergoing := by
    simp only [step, hbuf] at h1
    obtain ⟨rfl, _⟩ := Prod.mk.inj (Option.some.inj h1)
    simp [hn]
  have x1 := Exec.step _ _ _ _ _ h h1
  obtain ⟨t, rest, ht, hrem, hdat, hskip, _, _, _, hrest, hhist⟩ := task_facts x1 (pre := tr) (post := []) rfl
  have hph : t.phase = .spawned ∧ t.localAddr = loc := by
    simp only [step, hbuf] at h1
    obtain ⟨rfl, _⟩ := Prod.mk.inj (Option.some.inj h1)
    simp [← hn] at ht
    rw [← ht]; exact ⟨rfl, rfl⟩
  -- validation
  have hv : validate H t.requestData t.remoteAddr t.skipAuthenticityValidation (.ok secret)
      = .ok (some (p, ⟨rem.display, p.identifier⟩)) := by
    rw [hdat, hrem.1, hskip]
    rcases validate_spec H (d.take (bufferSizeAfter tr)) rem (skipAfter tr) (.ok secret) with
      ⟨h, _⟩ | ⟨_, _, hno⟩ | ⟨sec, q, hsec, hq, hv⟩
    · cases h
    · exact absurd hacc (hno secret p rfl)
    · injection hsec with hsec
      subst hsec
      have : p = q := Out.ok.inj (hacc.2.1.symm.trans hq.2.1)
      rw [hv, ← this]; rfl
  generalize hkey : (⟨rem.display, p.identifier⟩ : RequestKey) = k at *
  have h2 : step H s1 (.secret n (.ok secret)) = some (setPhase s1 n (.waiting p k), [.secret n rem (.ok secret)]) := by
    simp only [step, ht, hph.1, hv]; rw [hrem.1]
  have t2 : (setPhase s1 n (.waiting p k)).tasks[n]? = some { t with phase := .waiting p k } := by
    rw [getElem?_setPhase, if_pos rfl, ht]; rfl
  generalize hs2 : setPhase s1 n (.waiting p k) = s2 at h2 t2
  have l2 : s2.lock = s.lock ∧ s2.undergoing = s.undergoing := by rw [← hs2]; exact e1.2
  -- lock
  obtain ⟨s3, h3, t3, l3⟩ : ∃ s3, step H s2 (.lock n) = some (s3, []) ∧
      s3.tasks[n]? = some { t with phase := .locked p k } ∧ s3.undergoing = s.undergoing := by
    refine ⟨_, step_lock H s2 n _ p k t2 rfl (by rw [l2.1]; exact hlock) (by rw [l2.1]; exact inv.lock.1), ?_, l2.2⟩
    show (setPhase s2 n (.locked p k)).tasks[n]? = _
    rw [getElem?_setPhase, if_pos rfl, t2]; rfl
  -- check
  have hk : k ∉ s3.undergoing := by
    rw [l3]
    intro hk
    obtain ⟨j, g1, g2⟩ := (inv.keys.1 k).1 hk
    exact g2 (hfree j g1)
  have h3' := step_check_free H s3 n _ p k t3 rfl hk
  have t3' : (setPhase s3 n (.checked p k)).tasks[n]? = some { t with phase := .checked p k } := by
    rw [getElem?_setPhase, if_pos rfl, t3]; rfl
  generalize setPhase s3 n (.checked p k) = s3' at h3' t3'
  obtain ⟨s4, h4, t4⟩ : ∃ s4, step H s3' (.insert n) = some (s4, [.admitted n k]) ∧
      s4.tasks[n]? = some { t with phase := .admitted p k } := by
    refine ⟨_, step_insert H s3' n _ p k t3' rfl, ?_⟩
    show (setPhase s3' n (.admitted p k)).tasks[n]? = _
    rw [getElem?_setPhase, if_pos rfl, t3']; rfl
  obtain ⟨s5, h5⟩ : ∃ s5, step H s4 (.invoke n) = some (s5, [.started n ⟨loc, rem, p⟩]) := by
    have := step_invoke H s4 n _ p k t4 rfl
    simp only [hrem.1, hph.2] at this
    exact ⟨_, this⟩
  exact ⟨s5, .cons _ _ _ _ _ _ _ h1 (.cons _ _ _ _ _ _ _ h2 (.cons _ _ _ _ _ [] _ h3
    (.cons _ _ _ _ _ [] _ h3' (.cons _ _ _ _ _ _ _ h4 (.cons _ _ _ _ _ _ [] h5 (.nil s5))))))⟩

/-- The hypotheses of C39: in `demo_exec` the handler of task 0 has returned and its key is free again, while
`run()` is no longer executing; a fresh server that runs has every key free. -/
example : ∃ s tr, Exec Md5.md5 s tr ∧ runningAfter tr = true ∧ s.lock.owner = none ∧
    (∀ j k, .admitted j k ∉ tr) := by
  refine ⟨_, _, .step _ _ _ _ .run .init rfl, rfl, rfl, ?_⟩
  simp

/-! ### C40: panicking handlers -/

/-- **C40**, the part that holds: the key is released (by internal steps alone) if the handler returns `Ok` or
`Err`. Missing: handlers that panic, see `C40_panic_blocks_key`. -/
theorem C40_released_partial {H : Hash} {s : State} {tr : List Event} (h : Exec H s tr) (i : Nat) (o : Outcome)
    (r : Request) (hs : .started i r ∈ tr) (he : .ended i o ∈ tr) (ho : o ≠ .panic) :
    ∃ as s' es, (∀ a ∈ as, internal a = true) ∧ Steps H s as s' es ∧
      (∀ j, ¬ heldBy (tr ++ es) j ⟨r.remoteAddr.display, r.packet.identifier⟩ ∨ j ≠ i) ∧
      .released i ⟨r.remoteAddr.display, r.packet.identifier⟩ ∈ tr ++ es := by
  obtain ⟨as, s', es, h1, h2, h3⟩ := C39_released_after_return h i o r hs he ho
  refine ⟨as, s', es, h1, h2, fun j => ?_, h3⟩
  by_cases hj : j = i
  · subst hj; exact .inl (fun hh => hh.2 h3)
  · exact .inr hj

/-- **C40** is false: after a handler panicked, no request with its key is ever handled again. `j` is any request
received after the panic, in any execution. -/
theorem C40_panic_blocks_key {H : Hash} {s : State} {tr pre post : List Event} (h : Exec H s tr) (i j : Nat)
    (r r' : Request) (d : Bytes) (rem loc : SocketAddr) (hs : .started i r ∈ pre) (hp : .ended i .panic ∈ pre)
    (htr : tr = pre ++ .received j d rem loc :: post) (ha : r'.remoteAddr = r.remoteAddr)
    (hid : r'.packet.identifier = r.packet.identifier) : .started j r' ∉ tr := by
  intro hst
  obtain ⟨pre1, d1, post1, sec1, rest1, e1, e2, e3, e4, e5⟩ := started_facts h hst
  have hkey : keyOf r'.remoteAddr r'.packet = keyOf r.remoteAddr r.packet := by
    unfold keyOf; rw [ha, hid]
  -- split at the admission of `j`
  have hadm : .admitted j (keyOf r'.remoteAddr r'.packet) ∈ tr := by
    rw [← mem_eventsOf (i := j) rfl, e1, eventsOf_append]
    simp only [List.mem_append]
    right
    have : eventsOf j (.received j d1 r'.remoteAddr r'.localAddr :: post1)
      = .received j d1 r'.remoteAddr r'.localAddr :: eventsOf j post1 := by simp [eventsOf, taskOf]
    rw [this, e4]; simp
  obtain ⟨a, b, hab⟩ := List.append_of_mem hadm
  obtain ⟨s0, tr0, act, s1, es0, es1, hex, hstep, hpre⟩ := exec_split h hab
  obtain ⟨rfl, t, p, ht, hph⟩ := step_admitted hstep
  rw [List.append_nil] at hpre
  subst hpre
  -- the datagram of `j`, hence the panic of `i`, lies before
  obtain ⟨d2, pre2, post2, rest2, g1, g2, g3, g4, g5, g6⟩ := (exec_inv hex).task j t ht
  obtain ⟨_, _, _, _, _, _, _, _, f1, _, _⟩ := task_facts h htr
  obtain ⟨_, _, _, _, _, _, _, _, f2, _, _⟩ := task_facts hex g1
  have noev : ∀ p, eventsOf j p = [] → ∀ e ∈ p, ¬ (taskOf e = some j) := by
    intro p hp e he hte
    have := (mem_eventsOf (tr := p) hte).2 he
    rw [hp] at this; cases this
  have hall : pre ++ .received j d rem loc :: post = pre2 ++ .received j d2 t.remoteAddr t.localAddr ::
      (post2 ++ .admitted j (keyOf r'.remoteAddr r'.packet) :: b) := by
    rw [← htr, hab, g1]; simp
  obtain ⟨rfl, _, _⟩ := split_unique (fun e => taskOf e = some j) hall rfl rfl (noev _ f1) (noev _ f2)
  -- so `i` holds the key at that moment
  have hs' : .started i r ∈ a := by rw [g1]; exact List.mem_append_left _ hs
  have hp' : .ended i .panic ∈ a := by rw [g1]; exact List.mem_append_left _ hp
  obtain ⟨pre3, d3, post3, sec3, rest3, k1, k2, k3, k4, k5⟩ := started_facts hex hs'
  have hev : eventsOf i a = .received i d3 r.remoteAddr r.localAddr :: eventsOf i post3 := by
    rw [k1, eventsOf_append, k3]; simp [eventsOf, taskOf]
  have hheld : heldBy a i (keyOf r.remoteAddr r.packet) := by
    rw [← mem_eventsOf (i := i) rfl, hev, k4] at hp'
    rw [heldBy_iff, hev, k4]
    rcases k5 with rfl | rfl | ⟨o, ho, rfl⟩ | ⟨o, ho, rfl⟩
    · simp at hp'
    · simp
    · simp at hp'; exact absurd hp'.symm ho
    · simp at hp'; exact absurd hp'.symm ho
  exact (C38_duplicate_check h j (keyOf r'.remoteAddr r'.packet)).2 hab i (hkey ▸ hheld)

/-- Such an execution exists: `demo_exec` has a panicking handler whose key stays in the set. -/
example : ∃ s tr, Exec Md5.md5 s tr ∧ .ended 2 .panic ∈ tr ∧ s.undergoing = [⟨"10.0.0.1:5000", 8⟩] := by
  obtain ⟨s, tr, h, h1, _, _, h2, _⟩ := demo_exec
  exact ⟨s, tr, h, h2, h1⟩

/-! ### C53: shutdown -/

/-- Events of the receive loop and of its end. -/
def ofLoop : Event → Bool
  | .received .. | .noLocalAddr .. | .runReturned _ | .runDropped => true
  | _ => false

theorem step_ofLoop {H : Hash} {s s' : State} {a : Action} {es0 es1 : List Event} {e : Event}
    (he : ofLoop e = true) (h : step H s a = some (s', es0 ++ e :: es1)) : es0 = [] ∧ s.buf.isSome = true := by
  cases a <;> simp only [step, acquire] at h <;> (repeat' split at h) <;>
    first
    | (cases h; done)
    | (simp only [Option.some.injEq, Prod.mk.injEq] at h
       rcases es0 with _ | ⟨x, _ | ⟨y, es0⟩⟩ <;> simp at h <;>
         first
         | (obtain ⟨_, rfl, _⟩ := h; simp [ofLoop] at he; done)
         | (obtain ⟨_, _, rfl, _⟩ := h; simp [ofLoop] at he; done)
         | exact ⟨rfl, by simp_all⟩)

theorem running_at_loop_event {H : Hash} {s : State} {tr pre post : List Event} (h : Exec H s tr) {e : Event}
    (he : ofLoop e = true) (htr : tr = pre ++ e :: post) : runningAfter pre = true := by
  obtain ⟨s0, tr0, a, s1, es0, es1, hex, hst, hpre⟩ := exec_split h htr
  obtain ⟨rfl, hb⟩ := step_ofLoop he hst
  rw [List.append_nil] at hpre
  subst hpre
  rw [← (exec_inv hex).cfg.2.2.1]; exact hb

theorem not_running_after (pre : List Event) (e : Option String) : ∀ (q : List Event), (∀ x ∈ q, x ≠ .runStarted) →
    runningAfter (pre ++ .runReturned e :: q) = false := by
  intro q hq
  unfold runningAfter
  rw [List.foldl_append, List.foldl_cons]
  simp only
  induction q with
  | nil => rfl
  | cons x q ih =>
    rw [List.foldl_cons]
    have hx := hq x (by simp)
    have := ih (fun y hy => hq y (by simp [hy]))
    cases x <;> first | exact absurd rfl hx | exact this

/-- **C53** Datagrams are received only while `run()` executes: none after it returned, unless it is called
again. -/
theorem C53_intake_only_while_running {H : Hash} {s : State} {tr pre post : List Event} (h : Exec H s tr) :
    (∀ i d rem loc, tr = pre ++ .received i d rem loc :: post → runningAfter pre = true) ∧
    (∀ e, tr = pre ++ .runReturned e :: post → runningAfter pre = true ∧
      ((∀ x ∈ post, x ≠ .runStarted) → ∀ x ∈ post, (∀ i d rem loc, x ≠ .received i d rem loc) ∧
        (∀ d rem, x ≠ .noLocalAddr d rem) ∧ (∀ e, x ≠ .runReturned e))) := by
  refine ⟨fun i d rem loc htr => running_at_loop_event h rfl htr, fun e htr => ?_⟩
  refine ⟨running_at_loop_event h rfl htr, fun hno x hx => ?_⟩
  have key : ofLoop x = false := by
    cases hl : ofLoop x with
    | false => rfl
    | true =>
      obtain ⟨q, q', rfl⟩ := List.append_of_mem hx
      have h1 := running_at_loop_event (pre := pre ++ .runReturned e :: q) (post := q') h hl (by rw [htr]; simp)
      rw [not_running_after pre e q (fun y hy => hno y (by simp [hy]))] at h1
      cases h1
  refine ⟨?_, ?_, ?_⟩
  · rintro i d rem loc rfl; cases key
  · rintro d rem rfl; cases key
  · rintro e rfl; cases key

/-- **C53** The shutdown trigger makes `run()` return `Ok(())`, a socket error makes it return this error; both
leave tasks, lock and keys as they are. -/
theorem C53_run_result {H : Hash} {s : State} {tr : List Event} (h : Exec H s tr) (hr : runningAfter tr = true)
    (e : String) :
    (∃ s', step H s .shutdown = some (s', [.runReturned none]) ∧ s'.tasks = s.tasks ∧ s'.lock = s.lock ∧
      s'.undergoing = s.undergoing) ∧
    (∃ s', step H s (.recvError e) = some (s', [.runReturned (some e)]) ∧ s'.tasks = s.tasks ∧ s'.lock = s.lock ∧
      s'.undergoing = s.undergoing) := by
  have hb : s.buf.isSome = true := by rw [(exec_inv h).cfg.2.2.1]; exact hr
  exact ⟨⟨{ s with buf := none }, by simp only [step, if_pos hb], rfl, rfl, rfl⟩,
    ⟨{ s with buf := none }, by simp only [step, if_pos hb], rfl, rfl, rfl⟩⟩

/-- Actions of tasks. -/
def ofTask : Action → Bool
  | .secret .. | .lock _ | .check _ | .insert _ | .invoke _ | .handlerEnds .. | .lockAgain _ | .remove _ => true
  | _ => false

theorem crash_noBuf (s : State) (i : Nat) :
    crash { s with buf := none } i = { crash s i with buf := none } := by
  unfold crash setPhase
  by_cases h : s.lock.owner = some i <;> simp [h]

/-- **C53** Tasks go on after `run()` has returned exactly as they would have before. -/
theorem C53_tasks_go_on {H : Hash} {s s' : State} {es : List Event} {a : Action} (ha : ofTask a = true)
    (h : step H s a = some (s', es)) :
    step H { s with buf := none } a = some ({ s' with buf := none }, es) := by
  cases a <;> simp only [ofTask] at ha <;> first | (cases ha; done) | skip
  all_goals
    simp only [step, acquire] at h ⊢
    repeat' split at h
    all_goals first | (cases h; done) | skip
    all_goals
      obtain ⟨rfl, rfl⟩ := Prod.mk.inj (Option.some.inj h)
      simp_all [crash_noBuf, setPhase, release]

end Radius

import Verif.Model.Network
import Verif.Props.Codec
import Verif.Props.Handler
import Verif.Props.Secret
/-! # C68: clients and the example server over an unreliable network -/
namespace Radius
open Spec Server Network

/-- Which actions receive a datagram or ask for a secret. -/
theorem step_intake {H : Hash} {s s' : State} {a : Action} {es : List Event} (h : step H s a = some (s', es)) :
    (∀ i d rem loc, .received i d rem loc ∈ es → a = .recv d rem (some loc)) ∧
    (∀ i rem ans, .secret i rem ans ∈ es → a = .secret i ans) := by
  cases a with
  | recv datagram remote localAddr =>
    simp only [step] at h
    split at h
    · cases h
    · split at h
      · cases h; simp
      · cases h
        refine ⟨?_, by simp⟩
        intro i d rem loc hm
        simp only [List.mem_singleton, Event.received.injEq] at hm
        obtain ⟨_, rfl, rfl, rfl⟩ := hm
        rfl
  | secret i ans =>
    simp only [step] at h
    split at h
    · split at h
      · split at h
        all_goals
          cases h
          refine ⟨by simp, ?_⟩
          intro i' rem ans' hm
          simp at hm
          obtain ⟨rfl, _, rfl⟩ := hm
          rfl
      · cases h
    · cases h
  | _ =>
    simp only [step, acquire] at h
    repeat' split at h
    all_goals first
      | (cases h; done)
      | (cases h; simp)

/-- What is known of a world that has come about. -/
structure Inv68 (H : Hash) (ck echo : Bool) (Others : SocketAddr → Bytes → Prop) (w : World) : Prop where
  exec : Exec H w.server w.trace
  received : ∀ i d rem loc, .received i d rem loc ∈ w.trace → (∃ c ∈ w.calls, c.addr = rem ∧ c.data = d) ∨ Others rem d
  secret : ∀ i rem ans, .secret i rem ans ∈ w.trace → ans = .ok Example.SECRET
  calls : ∀ c ∈ w.calls, c.packet.encode H ck = .ok c.data
  replies : ∀ to data, (to, data) ∈ w.replies → ∃ i r, .started i r ∈ w.trace ∧ Example.handler H ck echo r = .ok (to, data)
  returned : ∀ j q, (j, q) ∈ w.returned → ∃ c d, w.calls[j]? = some c ∧ (c.addr, d) ∈ w.replies ∧
    Packet.decode (d.take 65507) c.packet.secret = .ok q
  once : (w.returned.map (fun x => x.1)).Nodup

theorem Inv68.server {H : Hash} {ck echo : Bool} {Others : SocketAddr → Bytes → Prop} {w : World}
    (h : Inv68 H ck echo Others w) {a : Action} {s : State} {es : List Event} (hs : step H w.server a = some (s, es))
    (hr : ∀ d rem loc, a = .recv d rem (some loc) → (∃ c ∈ w.calls, c.addr = rem ∧ c.data = d) ∨ Others rem d)
    (hsec : ∀ i ans, a = .secret i ans → ans = .ok Example.SECRET) :
    Inv68 H ck echo Others { w with server := s, trace := w.trace ++ es } := by
  obtain ⟨k1, k2⟩ := step_intake hs
  refine ⟨.step _ _ _ _ a h.exec hs, ?_, ?_, h.calls, ?_, h.returned, h.once⟩
  · intro i d rem loc hm
    rcases List.mem_append.1 hm with hm | hm
    · exact h.received i d rem loc hm
    · exact hr d rem loc (k1 i d rem loc hm)
  · intro i rem ans hm
    rcases List.mem_append.1 hm with hm | hm
    · exact h.secret i rem ans hm
    · exact hsec i ans (k2 i rem ans hm)
  · intro to data hm
    obtain ⟨i, r, h1, h2⟩ := h.replies to data hm
    exact ⟨i, r, List.mem_append.2 (.inl h1), h2⟩

theorem reaches_inv {H : Hash} {ck echo : Bool} {Others : SocketAddr → Bytes → Prop} {w : World}
    (h : Reaches H ck echo Others w) : Inv68 H ck echo Others w := by
  induction h with
  | start => exact ⟨.init, by simp, by simp, by simp, by simp, by simp, by simp⟩
  | call w c env _ hs ih =>
    refine ⟨ih.exec, ?_, ih.secret, ?_, ih.replies, ?_, ih.once⟩
    · intro i d rem loc hm
      refine (ih.received i d rem loc hm).imp ?_ id
      rintro ⟨c', hc, h⟩
      exact ⟨c', List.mem_append.2 (.inl hc), h⟩
    · intro c' hc'
      rcases List.mem_append.1 hc' with hc' | hc'
      · exact ih.calls c' hc'
      · rw [List.mem_singleton.1 hc']
        refine ((C44_sends_request_once H ck c.client env c.remote c.packet).1 c.remote c.data ?_).2.2.1
        generalize (c.client.sendPacket H ck env c.remote c.packet).trace = tr at hs
        induction tr with
        | nil => cases hs
        | cons e es ihe =>
          rcases List.mem_cons.1 hs with rfl | hs
          · simp [sentOf]
          · have := ihe hs
            cases e <;> simp [sentOf, this]
    · intro j q hq
      obtain ⟨c', d, h1, h2⟩ := ih.returned j q hq
      have hj : j < w.calls.length := (List.getElem?_eq_some_iff.1 h1).1
      exact ⟨c', d, by rw [List.getElem?_append_left hj]; exact h1, h2⟩
  | deliver w c loc s es _ hc hs ih =>
    refine ih.server hs ?_ (by intro i ans h; cases h)
    intro d rem loc' h
    cases h
    exact .inl ⟨c, hc, rfl, rfl⟩
  | stranger w a d loc s es _ ho hs ih =>
    refine ih.server hs ?_ (by intro i ans h; cases h)
    intro d' rem loc' h
    cases h
    exact .inr ho
  | fetch w i t s es _ ht hs ih =>
    refine ih.server hs (by intro d rem loc h; cases h) ?_
    intro i ans h
    cases h
    rfl
  | serve w a s es _ hp hs ih =>
    refine ih.server hs ?_ ?_
    · rintro d rem loc rfl; cases hp
    · rintro i ans rfl; cases hp
  | answer w i r to data s es _ hst hh hs ih =>
    have := ih.server hs (by intro d rem loc h; cases h) (by intro i ans h; cases h)
    refine ⟨this.exec, this.received, this.secret, this.calls, ?_, ?_, this.once⟩
    · intro to' data' hm
      rcases List.mem_append.1 hm with hm | hm
      · exact this.replies to' data' hm
      · obtain ⟨rfl, rfl⟩ := Prod.mk.inj (List.mem_singleton.1 hm)
        exact ⟨i, r, List.mem_append.2 (.inl hst), hh⟩
    · intro j q hq
      obtain ⟨c, d, h1, h2, h3⟩ := this.returned j q hq
      exact ⟨c, d, h1, List.mem_append.2 (.inl h2), h3⟩
  | unsent w i r to data s es _ hst hh hs ih =>
    exact ih.server hs (by intro d rem loc h; cases h) (by intro i ans h; cases h)
  | panics w i r s es _ hst hh hs ih =>
    exact ih.server hs (by intro d rem loc h; cases h) (by intro i ans h; cases h)
  | receive w j c env d q _ hj hn hr he hres ih =>
    refine ⟨ih.exec, ih.received, ih.secret, ih.calls, ih.replies, ?_, ?_⟩
    · intro j' q' hm
      rcases List.mem_append.1 hm with hm | hm
      · exact ih.returned j' q' hm
      · obtain ⟨rfl, rfl⟩ := Prod.mk.inj (List.mem_singleton.1 hm)
        obtain ⟨_, _, _, d', hd', hdec⟩ :=
          ((C45_result_identifies_stage H ck c.client env c.remote c.packet _ rfl).2.2.2.2.2.2.2.2.1 q').1 hres
        rw [he] at hd'
        cases hd'
        exact ⟨c, d, hj, hr, hdec⟩
    · rw [List.map_append, List.nodup_append]
      refine ⟨ih.once, by simp, ?_⟩
      intro x hx y hy
      simp only [List.map_cons, List.map_nil, List.mem_singleton] at hy
      subst hy
      rintro rfl
      obtain ⟨⟨j', q'⟩, hm, rfl⟩ := List.mem_map.1 hx
      exact hn q' hm

/-- The packet `q` is the answer of the handler to the datagram `d`. -/
def Answers (H : Hash) (echo : Bool) (d : Bytes) (q : Packet) : Prop :=
  ∃ p u s, Packet.decode d Example.SECRET = .ok p ∧ Answerable H p u s ∧ q.identifier = p.identifier ∧
    q.code = (if u = "admin" ∧ s = "p@ssw0rd" then .AccessAccept else .AccessReject) ∧
    q.attributes = (if echo then [⟨1, textBytes u⟩] else [])

/-- What a handler sent. -/
theorem reply_answers {H : Hash} {ck echo : Bool} {Others : SocketAddr → Bytes → Prop} {w : World}
    (h : Inv68 H ck echo Others w) {to : SocketAddr} {data : Bytes} (hm : (to, data) ∈ w.replies) :
    ∃ i d loc, .received i d to loc ∈ w.trace ∧ ((∃ c ∈ w.calls, c.addr = to ∧ c.data = d) ∨ Others to d) ∧
      Packet.isAuthenticResponse H data d Example.SECRET = .ok true ∧
      ∃ q, Packet.decode data Example.SECRET = .ok q ∧ Answers H echo d q := by
  obtain ⟨i, r, hst, hh⟩ := h.replies to data hm
  obtain ⟨pre, d, post, secret, htr, ⟨a, b, _, hsec⟩, hne, hdec, _⟩ := C37_handlers_see_validated_requests h.exec i r hst
  have hs : secret = Example.SECRET := by
    have : (.secret i r.remoteAddr (.ok secret) : Event) ∈ w.trace := by
      rw [htr]; subst_vars; simp [hsec]
    have := h.secret _ _ _ this
    cases this; rfl
  subst hs
  have hrec : (.received i d r.remoteAddr r.localAddr : Event) ∈ w.trace := by rw [htr]; simp
  have hdec' : Packet.decode d Example.SECRET = .ok r.packet := by
    have := (C58_padding_and_truncation _ _ _ hdec).1 (d.drop (bufferSizeAfter pre))
    rwa [List.take_append_drop] at this
  have h61 := C61_handler_exact H ck echo d Example.SECRET r Example.SECRET_ne hdec'
  by_cases hA : ∃ u s, Answerable H r.packet u s
  · obtain ⟨u, s, hus⟩ := hA
    obtain ⟨resp, h1, h2, q, h3, h4, h5, h6⟩ := h61.1 u s hus
    rw [h1] at hh
    cases hh
    exact ⟨i, d, r.localAddr, hrec, h.received _ _ _ _ hrec, h2, q, h3, r.packet, u, s, hdec', hus, h4, h5, h6⟩
  · have := h61.2 (fun u s hus => hA ⟨u, s, hus⟩)
    rw [this] at hh; cases hh

/-- **C68** Whatever a call returns is the handler's answer to a datagram that was sent from the address of this call: by
this call, by another call at the same address, or by somebody else using the address. Each call returns at most once. -/
theorem C68_answers_from_address {H : Hash} {ck echo : Bool} {Others : SocketAddr → Bytes → Prop} {w : World}
    (h : Reaches H ck echo Others w) :
    (w.returned.map (fun x => x.1)).Nodup ∧
    ∀ j q, (j, q) ∈ w.returned → ∃ c, w.calls[j]? = some c ∧
      ∃ d, ((∃ c' ∈ w.calls, c'.addr = c.addr ∧ c'.data = d) ∨ Others c.addr d) ∧ Answers H echo d q := by
  have inv := reaches_inv h
  refine ⟨inv.once, ?_⟩
  intro j q hq
  obtain ⟨c, data, hj, hr, hdec⟩ := inv.returned j q hq
  obtain ⟨i, d, loc, _, hfrom, _, q0, hq0, p, u, s, ha, hb, h1, h2, h3⟩ := reply_answers inv hr
  refine ⟨c, hj, d, hfrom, p, u, s, ha, hb, ?_⟩
  have hfull : Packet.decode data c.packet.secret = .ok q := by
    have := (C58_padding_and_truncation _ _ _ hdec).1 (data.drop 65507)
    rwa [List.take_append_drop] at this
  have := (C64_decode data Example.SECRET c.packet.secret).1 q0 hq0
  rw [hfull] at this
  cases this
  exact ⟨h1, h2, h3⟩

/-- **C68** If every call has an address of its own and nobody else sends from it, each call that returns a packet returns
the answer to its own request, however the network loses, repeats, delays and reorders datagrams and whatever other
hosts send to the server. -/
theorem C68_own_answer {H : Hash} {ck echo : Bool} {Others : SocketAddr → Bytes → Prop} {w : World}
    (h : Reaches H ck echo Others w) (hn : (w.calls.map (fun c => c.addr)).Nodup) (j : Nat) (q : Packet) (c : Call)
    (hq : (j, q) ∈ w.returned) (hj : w.calls[j]? = some c) (ho : ∀ d, ¬ Others c.addr d) : Answers H echo c.data q := by
  obtain ⟨c1, hc1, d, hd, ha⟩ := (C68_answers_from_address h).2 j q hq
  rw [hj] at hc1
  cases hc1
  rcases hd with ⟨c', hc', haddr, rfl⟩ | hd
  · obtain ⟨k, hk, hkc⟩ := List.mem_iff_getElem.1 hc'
    obtain ⟨hjl, hjc⟩ := List.getElem?_eq_some_iff.1 hj
    have e1 : (w.calls.map (fun c => c.addr))[k]'(by simpa using hk) = (w.calls.map (fun c => c.addr))[j]'(by simpa using hjl) := by
      simp only [List.getElem_map, hkc, hjc, haddr]
    have : k = j := (List.getElem_inj hn).1 e1
    subst this
    rw [← hkc, hjc] at ha
    exact ha
  · exact absurd hd (ho d)

open Example in
/-- **C68** For the example client: with an address of its own, a call for user `u` with password `pw` that returns a packet
returns the verdict on `u` and `pw` (up to its first zero byte) with the identifier of its own request. -/
theorem C68_example {H : Hash} {ck echo : Bool} {Others : SocketAddr → Bytes → Prop} {w : World}
    (h : Reaches H ck echo Others w) (hn : (w.calls.map (fun c => c.addr)).Nodup) (j : Nat) (q : Packet) (c : Call)
    (hq : (j, q) ∈ w.returned) (hj : w.calls[j]? = some c) (ho : ∀ d, ¬ Others c.addr d)
    (rng : Nat → UInt8) (u : String) (pw : Bytes) (hreq : Example.request H rng u pw = .ok c.packet) :
    ValidUtf8 (beforeZero pw) ∧ q.identifier = c.packet.identifier ∧
    q.code = (if u = "admin" ∧ beforeZero pw = textBytes "p@ssw0rd" then .AccessAccept else .AccessReject) := by
  have he : c.packet.encode H ck = .ok c.data := (reaches_inv h).calls c (List.mem_of_getElem? hj)
  obtain ⟨p, u', s', hdec, hans, h1, h2, _⟩ := C68_own_answer h hn j q c hq hj ho
  obtain ⟨resp, hh, _, q0, hq0, h4, h5, _⟩ :=
    (C61_handler_exact H ck echo c.data SECRET ⟨c.addr, c.addr, p⟩ SECRET_ne hdec).1 u' s' hans
  have h52 := C52_handler_answer H ck echo rng u pw c.data c.packet hreq he ⟨c.addr, c.addr, p⟩ hdec
  by_cases hv : ValidUtf8 (beforeZero pw)
  · refine ⟨hv, ?_⟩
    obtain ⟨resp', hh', _, hcl⟩ := h52.1 hv
    rw [hh] at hh'
    cases hh'
    obtain ⟨q1, hr, h6, h7, _⟩ := hcl c.client c.remote
    obtain ⟨_, _, _, d', hd', hdec'⟩ :=
      ((C45_result_identifies_stage H ck c.client _ c.remote c.packet _ rfl).2.2.2.2.2.2.2.2.1 q1).1 hr
    cases hd'
    have hfull : Packet.decode resp c.packet.secret = .ok q1 := by
      have := (C58_padding_and_truncation _ _ _ hdec').1 (resp.drop 65507)
      rwa [List.take_append_drop] at this
    have := (C64_decode resp SECRET c.packet.secret).1 q0 hq0
    rw [hfull] at this
    cases this
    refine ⟨?_, ?_⟩
    · rw [h1, ← h6]; exact h4.symm
    · rw [h2, ← h5]; exact h7
  · rw [h52.2 hv] at hh; cases hh

/-! Runs that can be computed. -/

/-- A choice of the next thing that happens. -/
inductive Move where
  | call (addr : SocketAddr) (client : Client) (remote : SocketAddr) (packet : Packet)
  | deliver (k : Nat) (loc : Option SocketAddr)
  | stranger (a : SocketAddr) (d : Bytes) (loc : Option SocketAddr)
  | fetch (i : Nat)
  | serve (a : Action)
  /-- the handler whose start is entry `k` of the trace sends its answer -/
  | answer (k : Nat)
  /-- that handler panics -/
  | panics (k : Nat)
  /-- reply `k` reaches call `j` -/
  | receive (j k : Nat)

/-- Go on with a server step. -/
def Network.World.stepTo (H : Hash) (w : World) (a : Action) : Option World :=
  match step H w.server a with
  | some (s, es) => some { w with server := s, trace := w.trace ++ es }
  | none => none

/-- One move. -/
def Network.World.move (H : Hash) (ck echo : Bool) (w : World) : Move → Option World
  | .call addr client remote packet =>
    match (client.sendPacket H ck (answering []) remote packet).trace with
    | [_, _, .send to data, _] => if to = remote then some { w with calls := w.calls ++ [⟨addr, client, remote, packet, data⟩] } else none
    | _ => none
  | .deliver k loc =>
    match w.calls[k]? with
    | some c => w.stepTo H (.recv c.data c.addr loc)
    | none => none
  | .stranger a d loc => w.stepTo H (.recv d a loc)
  | .fetch i =>
    match w.server.tasks[i]? with
    | some t => w.stepTo H (.secret i (Example.fetchSecret t.remoteAddr))
    | none => none
  | .serve a => if plain a then w.stepTo H a else none
  | .answer k =>
    match w.trace[k]? with
    | some (.started i r) =>
      match Example.handler H ck echo r with
      | .ok reply =>
        match step H w.server (.handlerEnds i .ok) with
        | some (s, es) => some { w with server := s, trace := w.trace ++ es, replies := w.replies ++ [reply] }
        | none => none
      | _ => none
    | _ => none
  | .panics k =>
    match w.trace[k]? with
    | some (.started i r) =>
      match Example.handler H ck echo r with
      | .panic => w.stepTo H (.handlerEnds i .panic)
      | _ => none
    | _ => none
  | .receive j k =>
    match w.calls[j]?, w.replies[k]? with
    | some c, some (to, d) =>
      if to = c.addr ∧ j ∉ w.returned.map (fun x => x.1) then
        match (c.client.sendPacket H ck (answering d) c.remote c.packet).result with
        | .ready (.ok q) => some { w with returned := w.returned ++ [(j, q)] }
        | _ => none
      else none
    | _, _ => none

/-- Several moves. -/
def Network.World.play (H : Hash) (ck echo : Bool) (w : World) : List Move → Option World
  | [] => some w
  | m :: ms =>
    match w.move H ck echo m with
    | some w' => World.play H ck echo w' ms
    | none => none

theorem move_reaches {H : Hash} {ck echo : Bool} {Others : SocketAddr → Bytes → Prop} {w w' : World} {m : Move}
    (h : Reaches H ck echo Others w) (ho : ∀ a d loc, m = .stranger a d loc → Others a d)
    (hm : w.move H ck echo m = some w') : Reaches H ck echo Others w' := by
  cases m with
  | call addr client remote packet =>
    simp only [World.move] at hm
    split at hm
    · next to data _ heq =>
      split at hm
      · next hto =>
        cases hm
        subst hto
        exact .call w ⟨addr, client, to, packet, data⟩ (answering []) h (by simp only; rw [heq]; simp)
      · cases hm
    · cases hm
  | deliver k loc =>
    simp only [World.move] at hm
    split at hm
    · next c hc =>
      unfold World.stepTo at hm
      split at hm
      · next s es hs => cases hm; exact .deliver w c loc s es h (List.mem_of_getElem? hc) hs
      · cases hm
    · cases hm
  | stranger a d loc =>
    simp only [World.move, World.stepTo] at hm
    split at hm
    · next s es hs => cases hm; exact .stranger w a d loc s es h (ho a d loc rfl) hs
    · cases hm
  | fetch i =>
    simp only [World.move] at hm
    split at hm
    · next t ht =>
      unfold World.stepTo at hm
      split at hm
      · next s es hs => cases hm; exact .fetch w i t s es h ht hs
      · cases hm
    · cases hm
  | serve a =>
    simp only [World.move] at hm
    split at hm
    · next hp =>
      unfold World.stepTo at hm
      split at hm
      · next s es hs => cases hm; exact .serve w a s es h hp hs
      · cases hm
    · cases hm
  | answer k =>
    simp only [World.move] at hm
    split at hm
    · next i r hk =>
      split at hm
      · next reply hr =>
        split at hm
        · next s es hs =>
          cases hm
          exact .answer w i r reply.1 reply.2 s es h (List.mem_of_getElem? hk) hr hs
        · cases hm
      · cases hm
    · cases hm
  | panics k =>
    simp only [World.move] at hm
    split at hm
    · next i r hk =>
      split at hm
      · next hr =>
        unfold World.stepTo at hm
        split at hm
        · next s es hs => cases hm; exact .panics w i r s es h (List.mem_of_getElem? hk) hr hs
        · cases hm
      · cases hm
    · cases hm
  | receive j k =>
    simp only [World.move] at hm
    split at hm
    · next c to d hc hk =>
      split at hm
      · next hcond =>
        obtain ⟨rfl, hj⟩ := hcond
        split at hm
        · next q hq =>
          cases hm
          refine .receive w j c (answering d) d q h hc ?_ (List.mem_of_getElem? hk) rfl hq
          intro q' hq'
          exact hj (List.mem_map.2 ⟨_, hq', rfl⟩)
        · cases hm
      · cases hm
    · cases hm

theorem play_reaches {H : Hash} {ck echo : Bool} {Others : SocketAddr → Bytes → Prop} {ms : List Move} :
    ∀ {w w' : World}, Reaches H ck echo Others w → (∀ a d loc, .stranger a d loc ∈ ms → Others a d) →
      w.play H ck echo ms = some w' → Reaches H ck echo Others w' := by
  induction ms with
  | nil => intro w w' h _ hp; cases hp; exact h
  | cons m ms ih =>
    intro w w' h ho hp
    simp only [World.play] at hp
    split at hp
    · next w1 hm =>
      exact ih (move_reaches h (fun a d loc e => ho a d loc (by rw [e]; exact List.mem_cons_self ..)) hm)
        (fun a d loc hd => ho a d loc (List.mem_cons_of_mem _ hd)) hp
    · cases hp

/-- The request of the example client. -/
def requestOr (rng : Nat → UInt8) (u : String) (pw : Bytes) : Packet :=
  match Example.request Md5.md5 rng u pw with
  | .ok p => p
  | _ => Packet.new rng .AccessRequest []

def hostA : SocketAddr := .v4 ⟨10, 0, 0, 1⟩ 5000
def hostS : SocketAddr := .v4 ⟨10, 0, 0, 9⟩ 1812
def good68 : Packet := requestOr (fun n => UInt8.ofNat (3 * n)) "admin" (textBytes "p@ssw0rd")
def bad68 : Packet := requestOr (fun n => UInt8.ofNat (5 * n)) "admin" (textBytes "guess")

/-- The first call is answered, but the answer is late. -/
def lateRun : List Move :=
  [.serve .run, .call hostA (Client.new none none) hostS good68, .deliver 0 (some hostS), .fetch 0, .serve (.lock 0),
   .serve (.check 0), .serve (.insert 0), .serve (.invoke 0), .answer 4,
   .call hostA (Client.new none none) hostS bad68, .receive 1 0]

/-- The datagram is delivered twice; the call returns the answer. -/
def repeatedRun : List Move :=
  [.serve .run, .call hostA (Client.new none none) hostS good68, .deliver 0 (some hostS), .deliver 0 (some hostS), .fetch 0,
   .serve (.lock 0), .serve (.check 0), .serve (.insert 0), .serve (.invoke 0), .fetch 1, .serve (.lock 1), .serve (.check 1),
   .answer 5, .receive 0 0]

/-- **C68** needs the assumption on addresses, even with an honest network and no other hosts: when an address is used again,
the late answer to the first request — right password — is returned for the second request, with a wrong password and
another identifier, as Access-Accept. -/
theorem C68_late_answer :
    ∃ w : World, Reaches Md5.md5 true false (fun _ _ => False) w ∧ w.calls.map (fun c => c.addr) = [hostA, hostA] ∧
      (∃ c, w.calls[1]? = some c ∧
        Example.request Md5.md5 (fun n => UInt8.ofNat (5 * n)) "admin" (textBytes "guess") = .ok c.packet) ∧
      ∃ q, w.returned = [(1, q)] ∧ q.code = .AccessAccept ∧ q.identifier ≠ bad68.identifier := by
  have key : (match World.play Md5.md5 true false ⟨listen, [], [], [], []⟩ lateRun with
    | some w => decide (w.calls.map (fun c => c.addr) = [hostA, hostA]) &&
        (match w.calls[1]? with
          | some c => decide (Example.request Md5.md5 (fun n => UInt8.ofNat (5 * n)) "admin" (textBytes "guess") = .ok c.packet)
          | none => false) &&
        (match w.returned with
          | [(1, q)] => decide (q.code = .AccessAccept ∧ q.identifier ≠ bad68.identifier)
          | _ => false)
    | none => false) = true := by decide +kernel
  split at key
  · next w hw =>
    simp only [Bool.and_eq_true, decide_eq_true_eq] at key
    obtain ⟨⟨h1, h2⟩, h3⟩ := key
    refine ⟨w, play_reaches .start (by simp [lateRun]) hw, h1, ?_, ?_⟩
    · split at h2
      · next c hc => exact ⟨c, hc, of_decide_eq_true h2⟩
      · cases h2
    · split at h3
      · next q hq => exact ⟨q, hq, of_decide_eq_true h3⟩
      · cases h3
  · cases key

/-- Non-vacuity of `C68_own_answer` and `C68_example`: the request is delivered twice, answered once, and the call
returns the answer. -/
example : ∃ w : World, Reaches Md5.md5 true false (fun a _ => a ≠ hostA) w ∧ (w.calls.map (fun c => c.addr)).Nodup ∧
    ∃ q, w.returned = [(0, q)] ∧ q.code = .AccessAccept := by
  have key : (match World.play Md5.md5 true false ⟨listen, [], [], [], []⟩ repeatedRun with
    | some w => decide ((w.calls.map (fun c => c.addr)).Nodup) &&
        (match w.returned with
          | [(0, q)] => decide (q.code = .AccessAccept)
          | _ => false)
    | none => false) = true := by decide +kernel
  split at key
  · next w hw =>
    simp only [Bool.and_eq_true, decide_eq_true_eq] at key
    obtain ⟨h1, h3⟩ := key
    refine ⟨w, play_reaches .start (by simp [repeatedRun]) hw, h1, ?_⟩
    split at h3
    · next q hq => exact ⟨q, hq, of_decide_eq_true h3⟩
    · cases h3
  · cases key

end Radius

import Verif.Props.Avp
import Verif.Props.AttributeList
import Verif.Spec.Accessors
/-! # C24, C25, C28, C30–C32: typed accessors -/
namespace Radius
open Spec

theorem foldl_concat (as : List AVP) (acc : Bytes) :
    as.foldl (fun acc v => acc ++ v.encodeBytes) acc = acc ++ (as.map (fun a => a.value)).flatten := by
  induction as generalizing acc with
  | nil => simp
  | cons a as ih => simp only [List.foldl_cons, ih]; simp [AVP.encodeBytes]

theorem lookupConcat_eq (t : AVPType) (p : Packet) : Gen.lookupConcatOctets t p =
    if p.lookupAll t = [] then none else some ((p.lookupAll t).map (fun a => a.value)).flatten := by
  unfold Gen.lookupConcatOctets
  simp only
  cases h : p.lookupAll t with
  | nil => rfl
  | cons a as =>
    simp only [List.isEmpty_cons, reduceCtorEq, ↓reduceIte]
    rw [foldl_concat, List.nil_append]

theorem filter_fromBytes (t : AVPType) (cs : List Bytes) :
    (cs.map (fun c => AVP.fromBytes t c)).filter (fun a => a.typ = t) = cs.map (fun c => AVP.fromBytes t c) := by
  rw [List.filter_eq_self]
  intro a ha
  obtain ⟨c, _, rfl⟩ := List.mem_map.1 ha
  simp [AVP.fromBytes]

theorem lookupAll_addConcat (t : AVPType) (p : Packet) (v : Bytes) :
    (Gen.addConcatOctets t p v).lookupAll t = p.lookupAll t ++ (chunks 252 v).map (fun c => AVP.fromBytes t c) := by
  unfold Gen.addConcatOctets
  rw [lookupAll_extend, filter_fromBytes]

/-- **C24** Splitting: the pieces are appended in order, have 1 to 253 bytes, concatenate to the value, and
nothing else of the packet changes. -/
theorem C24_concat_split (t : AVPType) (p : Packet) (v : Bytes) :
    ∃ pieces : List Bytes, (∀ c ∈ pieces, 1 ≤ c.length ∧ c.length ≤ 253) ∧ pieces.flatten = v ∧
      Gen.addConcatOctets t p v =
        { p with attributes := p.attributes ++ pieces.map (fun c => ⟨t, c⟩) } := by
  refine ⟨chunks 252 v, ?_, chunks_flatten 252 v, rfl⟩
  intro c hc
  have := chunks_length_le 252 v c hc
  have : 0 < c.length := List.length_pos_iff.2 this.2
  omega

/-- **C24** Adding to a packet without the attribute and looking it up; adding again appends. -/
theorem C24_concat_lookup (t : AVPType) (p : Packet) (v w : Bytes) :
    (p.lookupAll t = [] →
      Gen.lookupConcatOctets t (Gen.addConcatOctets t p v) = if v = [] then none else some v) ∧
    (∀ x, Gen.lookupConcatOctets t p = some x →
      Gen.lookupConcatOctets t (Gen.addConcatOctets t p w) = some (x ++ w)) := by
  have hval : ∀ u : Bytes, (((chunks 252 u).map (fun c => AVP.fromBytes t c)).map (fun a => a.value)).flatten = u := by
    intro u
    rw [List.map_map]
    have : ((fun a : AVP => a.value) ∘ fun c => AVP.fromBytes t c) = id := rfl
    rw [this, List.map_id, chunks_flatten]
  constructor
  · intro h
    rw [lookupConcat_eq, lookupAll_addConcat, h, List.nil_append, hval]
    by_cases hv : v = []
    · subst hv; simp [chunks_nil]
    · rw [if_neg hv, if_neg]
      rw [chunks_ne_nil _ _ hv]; simp
  · intro x hx
    rw [lookupConcat_eq] at hx ⊢
    by_cases h : p.lookupAll t = []
    · rw [if_pos h] at hx; cases hx
    · rw [if_neg h] at hx
      rw [lookupAll_addConcat, if_neg (by simp [h]), List.map_append, List.flatten_append, hval]
      rw [Option.some.inj hx]

theorem lookupConcat_attributes (t : AVPType) (p q : Packet) (h : p.attributes = q.attributes) :
    Gen.lookupConcatOctets t p = Gen.lookupConcatOctets t q := by
  simp [Gen.lookupConcatOctets, Packet.lookupAll, h]

/-- **C24** The same bytes come out after the packet went over the wire. -/
theorem C24_concat_over_the_wire (H : Hash) (ck : Bool) (t : AVPType) (p : Packet) (v bs : Bytes)
    (hr : Reachable p) (hn : p.lookupAll t = []) (hv : v ≠ [])
    (hsz : wireSize (Gen.addConcatOctets t p v).attributes < 65516)
    (he : Packet.encode H ck (Gen.addConcatOctets t p v) = .ok bs) :
    ∃ q, Packet.decode bs p.secret = .ok q ∧ Gen.lookupConcatOctets t q = some v := by
  have hd := (C04_encode_decode H ck (Gen.addConcatOctets t p v) bs (.extend p _ hr) hsz he).1
  refine ⟨_, hd, ?_⟩
  have hl := (C24_concat_lookup t p v []).1 hn
  rw [if_neg hv] at hl
  rw [← hl]
  exact lookupConcat_attributes t _ _ rfl

/-- A value of 300 bytes in two pieces survives the wire. -/
example : (match Packet.encode Md5.md5 true
      (Gen.addConcatOctets 79 (samplePacket .AccessRequest) (List.replicate 300 7)) with
    | .ok bs => (match Packet.decode bs [1] with
      | .ok q => decide ((q.lookupAll 79).length = 2 ∧
          Gen.lookupConcatOctets 79 q = some (List.replicate 300 7))
      | _ => false)
    | _ => false) = true := by decide +kernel

/-- **C25** Fixed-length attributes. -/
theorem C25_fixed_length (n : Nat) (t : AVPType) (p : Packet) (v : Bytes) :
    (v.length = n → Gen.addFixedOctets n t p v
      = ({ p with attributes := p.attributes ++ [⟨t, v⟩] }, .ok ())) ∧
    (v.length ≠ n → Gen.addFixedOctets n t p v
      = (p, .err (.InvalidAttributeLengthError (toString n ++ " bytes") v.length))) := by
  constructor
  · intro h; simp only [Gen.addFixedOctets, h, ne_eq, not_true_eq_false, ↓reduceIte]; rfl
  · intro h
    simp only [Gen.addFixedOctets, h, ne_eq, not_false_eq_true, ↓reduceIte]

example : Gen.addFixedOctets 16 60 (samplePacket .AccessRequest) [1]
    = (samplePacket .AccessRequest, .err (.InvalidAttributeLengthError "16 bytes" 1)) := by decide

/-- **C25** For every family: `add_*` succeeds exactly on addable values, and when it fails the packet is
unchanged. -/
theorem C25_add_outcome (H : Hash) (t : AVPType) (p : Packet) (k : Kind) (v : k.Arg)
    (ha : p.authenticator.length = 16) :
    (addable p k v → (Gen.add H t p k v).2 = .ok ()) ∧
    (¬ addable p k v → ∃ e, Gen.add H t p k v = (p, .err e)) := by
  cases k with
  | userPassword =>
    change Bytes at v
    have h26 := C26_user_password_hiding H t v p.secret p.authenticator
    simp only [Gen.add, Gen.addUserPassword, Packet.getSecret, Packet.getAuthenticator, addable]
    constructor
    · rintro ⟨h1, h2⟩
      obtain ⟨c, hc, _⟩ := h26.1 h1 h2 ha
      rw [hc]; rfl
    · intro h
      by_cases h1 : v.length ≤ 128
      · have h2 : p.secret = [] := Classical.byContradiction fun h2 => h ⟨h1, h2⟩
        rw [h26.2.2.1 h1 h2]; exact ⟨_, rfl⟩
      · rw [h26.2.1 (by omega)]; exact ⟨_, rfl⟩
  | tunnelPassword =>
    obtain ⟨⟨r0, r1⟩, tag, v⟩ := v
    have h29 := C29_tunnel_password_hiding H r0 r1 t tag v p.secret p.authenticator
    simp only [Gen.add, Gen.addTunnelPassword, Packet.getSecret, Packet.getAuthenticator, addable]
    constructor
    · intro h
      obtain ⟨s0, c, hc, _⟩ := h29.1 h ha
      rw [hc]; rfl
    · intro h
      rw [h29.2.1 (by omega) (Classical.byContradiction fun h2 => h h2)]; exact ⟨_, rfl⟩
  | fixedOctets n =>
    change Bytes at v
    have h25 := C25_fixed_length n t p v
    simp only [Gen.add, addable]
    constructor
    · intro h; rw [h25.1 h]
    · intro h; exact ⟨_, h25.2 h⟩
  | ipv4Prefix =>
    change Bytes at v
    have h19 := C19_ipv4_prefix t v ⟨t, []⟩
    simp only [Gen.add, Gen.addIpv4Prefix, addable]
    constructor
    · intro h; rw [(h19.1 h).1]; rfl
    · intro h; rw [h19.2.1 h]; exact ⟨_, rfl⟩
  | ipv6Prefix =>
    change Bytes at v
    have h19 := C19_ipv6_prefix t v ⟨t, []⟩
    simp only [Gen.add, Gen.addIpv6Prefix, addable]
    constructor
    · intro h; obtain ⟨l, hl, _⟩ := h19.1 h; rw [hl]; rfl
    · intro h; rw [h19.2.1 (by omega)]; exact ⟨_, rfl⟩
  | vsa => exact v.elim
  | _ => exact ⟨fun _ => rfl, fun h => absurd trivial h⟩

/-! ### What an `add_*` appends -/

/-- Every `add_*` appends attributes of its own type and changes nothing else. -/
theorem add_appends (H : Hash) (t : AVPType) (p : Packet) (k : Kind) (v : k.Arg) :
    ∃ as : List AVP, (∀ a ∈ as, a.typ = t) ∧
      (Gen.add H t p k v).1 = { p with attributes := p.attributes ++ as } := by
  have one : ∀ a : AVP, a.typ = t → ∃ as : List AVP, (∀ a ∈ as, a.typ = t) ∧
      p.add a = { p with attributes := p.attributes ++ as } :=
    fun a h => ⟨[a], by simpa using h, rfl⟩
  have chk : ∀ a : Out AVPError AVP, (∀ x, a = .ok x → x.typ = t) → ∃ as : List AVP,
      (∀ a ∈ as, a.typ = t) ∧ (Gen.addChecked p a).1 = { p with attributes := p.attributes ++ as } := by
    intro a h
    cases a with
    | ok x => exact one x (h x rfl)
    | err e => exact ⟨[], by simp, by simp [Gen.addChecked]⟩
    | panic => exact ⟨[], by simp, by simp [Gen.addChecked]⟩
  cases k with
  | userPassword =>
    change Bytes at v
    apply chk
    intro x hx
    unfold AVP.fromUserPassword at hx
    repeat' split at hx
    all_goals first | cases hx; done | (cases hx; rfl)
  | tunnelPassword =>
    obtain ⟨⟨r0, r1⟩, tag, v⟩ := v
    apply chk
    intro x hx
    unfold AVP.fromTunnelPassword at hx
    simp only at hx
    repeat' split at hx
    all_goals first | cases hx; done | (cases hx; rfl)
  | fixedOctets n =>
    change Bytes at v
    by_cases h : v.length = n
    · rw [show (Gen.add H t p (.fixedOctets n) v) = _ from (C25_fixed_length n t p v).1 h]
      exact ⟨[⟨t, v⟩], by simp, rfl⟩
    · rw [show (Gen.add H t p (.fixedOctets n) v) = _ from (C25_fixed_length n t p v).2 h]
      exact ⟨[], by simp, by simp⟩
  | ipv4Prefix =>
    change Bytes at v
    apply chk
    intro x hx
    unfold AVP.fromIpv4Prefix at hx
    simp only at hx
    split at hx <;> cases hx
    rfl
  | ipv6Prefix =>
    change Bytes at v
    apply chk
    intro x hx
    unfold AVP.fromIpv6Prefix at hx
    simp only at hx
    split at hx <;> cases hx
    rfl
  | concatOctets =>
    change Bytes at v
    obtain ⟨pieces, _, _, h⟩ := C24_concat_split t p v
    refine ⟨pieces.map (fun c => ⟨t, c⟩), ?_, h⟩
    intro a ha
    obtain ⟨c, _, rfl⟩ := List.mem_map.1 ha
    rfl
  | vsa => exact v.elim
  | taggedString =>
    obtain ⟨tag, v⟩ := v
    apply one
    cases tag <;> rfl
  | _ => exact one _ rfl

/-- `lookup_*` depends only on the attributes of its type, the secret and the authenticator. -/
theorem lookup_congr (H : Hash) (t : AVPType) (p q : Packet) (k : Kind) (h : p.lookupAll t = q.lookupAll t)
    (hs : p.secret = q.secret) (ha : p.authenticator = q.authenticator) :
    Gen.lookup H t p k = Gen.lookup H t q k ∧ Gen.lookupAll H t p k = Gen.lookupAll H t q k := by
  have hd : Gen.decode H p k = Gen.decode H q k := by
    funext a
    cases k <;> simp only [Gen.decode, Packet.getSecret, Packet.getAuthenticator, hs, ha] <;> rfl
  constructor
  · unfold Gen.lookup
    split
    · simp [Gen.lookupConcatOctets, h]
    · rfl
    · simp only [lookup_eq_head, h, hd]
  · simp only [Gen.lookupAll, h, hd]

/-- **C31** Accessors of attributes with different type codes do not interfere. -/
theorem C31_frame (H : Hash) (t t' : AVPType) (ht : t ≠ t') (p : Packet) (k k' : Kind) (v : k.Arg) :
    Gen.lookup H t' (Gen.add H t p k v).1 k' = Gen.lookup H t' p k' ∧
    Gen.lookupAll H t' (Gen.add H t p k v).1 k' = Gen.lookupAll H t' p k' ∧
    Gen.lookup H t' (Gen.delete t p) k' = Gen.lookup H t' p k' ∧
    Gen.lookupAll H t' (Gen.delete t p) k' = Gen.lookupAll H t' p k' ∧
    (k' ≠ .vsa → Gen.lookup H t (Gen.delete t p) k' = none) := by
  obtain ⟨as, has, hadd⟩ := add_appends H t p k v
  have h1 : (Gen.add H t p k v).1.lookupAll t' = p.lookupAll t' := by
    rw [hadd]
    have := lookupAll_extend p as t'
    simp only [Packet.extend, Attributes.extend] at this
    rw [this]
    have : as.filter (fun a => a.typ = t') = [] := by
      rw [List.filter_eq_nil_iff]
      intro a ha
      simp [has a ha, ht]
    rw [this, List.append_nil]
  have h2 : (Gen.delete t p).lookupAll t' = p.lookupAll t' := by
    unfold Gen.delete
    rw [lookupAll_delete, if_neg ht]
  have c1 := lookup_congr H t' (Gen.add H t p k v).1 p k' h1 (by rw [hadd]) (by rw [hadd])
  have c2 := lookup_congr H t' (Gen.delete t p) p k' h2 rfl rfl
  refine ⟨c1.1, c1.2, c2.1, c2.2, ?_⟩
  intro hv
  have h3 : (Gen.delete t p).lookupAll t = [] := by
    unfold Gen.delete
    rw [lookupAll_delete, if_pos rfl]
  unfold Gen.lookup
  split
  · simp only [Gen.lookupConcatOctets, h3]; rfl
  · exact absurd rfl hv
  · rw [lookup_eq_head, h3]; rfl

theorem collect_eq {α : Type} (f : AVP → Out AVPError α) (as : List AVP) (acc : List α) :
    Gen.collect f as acc = (Gen.collect f as []) >>= fun vs => .ok (acc ++ vs) := by
  induction as generalizing acc with
  | nil => simp [Gen.collect]
  | cons a as ih =>
    simp only [Gen.collect]
    cases h : f a with
    | ok v =>
      simp only [Out.bind_ok]
      rw [ih, ih ([] ++ [v])]
      cases Gen.collect f as [] <;> simp
    | err e => simp
    | panic => simp

theorem collected_of_ne_panic {α : Type} (f : AVP → Out AVPError α) (hf : ∀ a, f a ≠ .panic) (as : List AVP) :
    Collected f as (Gen.collect f as []) := by
  induction as with
  | nil => exact .all [] [] rfl
  | cons a as ih =>
    simp only [Gen.collect]
    cases h : f a with
    | panic => exact absurd h (hf a)
    | err e =>
      simp only [Out.bind_err]
      exact .failed [] [] a as e rfl h
    | ok v =>
      simp only [Out.bind_ok]
      rw [collect_eq]
      generalize Gen.collect f as [] = r at ih
      cases ih with
      | all _ vs hm =>
        simp only [Out.bind_ok]
        exact .all _ ([v] ++ vs) (by simp [h, hm])
      | failed before vs b after e hm hb =>
        simp only [Out.bind_err]
        exact .failed (a :: before) (v :: vs) b after e (by simp [h, hm]) hb

/-! ### Decoding never panics -/

theorem encodeString_ne_panic (a : AVP) : a.encodeString ≠ .panic := by
  by_cases h : ValidUtf8 a.value
  · obtain ⟨s, hs⟩ := (C20_text_validity a).1.2 h; rw [hs]; simp
  · obtain ⟨m, hm⟩ := (C20_text_validity a).2 h; rw [hm]; simp

theorem stringFromUtf8_ne_panic (bs : Bytes) : stringFromUtf8 bs ≠ .panic :=
  encodeString_ne_panic ⟨0, bs⟩

theorem encodeTaggedString_ne_panic (a : AVP) : a.encodeTaggedString ≠ .panic := by
  obtain ⟨t, v⟩ := a
  cases v with
  | nil => rw [(C21_tagged_text_read t 0 []).1]; simp
  | cons b bs =>
    have h := C21_tagged_text_read t b bs
    by_cases h0 : b.toNat = 0
    · rw [h.2.1 h0]; simp
    · by_cases h1 : b.toNat ≤ 31
      · have h2 := h.2.2.1 (by omega) h1
        by_cases hv : ValidUtf8 bs
        · obtain ⟨cs, hcs⟩ := hv
          have : bs = textBytes (String.ofList cs) := by simp [textBytes, hcs]
          rw [(h2.1 _).2 this]; simp
        · obtain ⟨m, hm⟩ := h2.2 hv; rw [hm]; simp
      · have h2 := h.2.2.2 (by omega)
        by_cases hv : ValidUtf8 (b :: bs)
        · obtain ⟨cs, hcs⟩ := hv
          have : b :: bs = textBytes (String.ofList cs) := by simp [textBytes, hcs]
          rw [(h2.1 _).2 this]; simp
        · obtain ⟨m, hm⟩ := h2.2 hv; rw [hm]; simp

theorem encodeTaggedU32_ne_panic (a : AVP) : a.encodeTaggedU32 ≠ .panic := by
  obtain ⟨t, v⟩ := a
  cases v with
  | nil => rw [(C22_tagged_u32_read t 0 []).1]; simp
  | cons b bs =>
    have h := C22_tagged_u32_read t b bs
    by_cases h1 : b.toNat ≤ 31
    · by_cases h2 : bs.length = 4
      · obtain ⟨v, hv, _⟩ := h.2.2.2 h1 h2; rw [hv]; simp
      · rw [h.2.2.1 h1 h2]; simp
    · rw [h.2.1 (by omega)]; simp

theorem encodeU32_ne_panic (a : AVP) : a.encodeU32 ≠ .panic := by
  by_cases h : a.value.length = 4
  · obtain ⟨v, hv, _⟩ := (C17_u32_read a).1 h; rw [hv]; simp
  · rw [(C17_u32_read a).2 h]; simp

theorem encodeUserPassword_ne_panic (H : Hash) (a : AVP) (s au : Bytes) :
    a.encodeUserPassword H s au ≠ .panic := by
  have h := C27_user_password_reader H a s au
  by_cases h1 : a.value.length < 16 ∨ 128 < a.value.length
  · obtain ⟨m, hm⟩ := h.1 h1; rw [hm]; simp
  · by_cases h2 : s = []
    · rw [h.2.1 (by omega) (by omega) h2]; simp
    · by_cases h3 : au.length = 16
      · obtain ⟨d, _, hd⟩ := h.2.2.2 (by omega) (by omega) h2 h3; rw [hd]; simp
      · rw [h.2.2.1 (by omega) (by omega) h2 h3]; simp

theorem encodeTunnelPassword_ne_panic (H : Hash) (a : AVP) (s au : Bytes) :
    a.encodeTunnelPassword H s au ≠ .panic := by
  have h := C29_tunnel_password_reader H a s au
  by_cases h1 : ∃ k, 1 ≤ k ∧ k ≤ 15 ∧ a.value.length = 3 + 16 * k
  · obtain ⟨k, hk, hk', hl⟩ := h1
    obtain ⟨t, v⟩ := a
    match v, hl with
    | tg :: s0 :: s1 :: c, hl =>
      have h2 := h.2 tg s0 s1 c k rfl hk hk' (by simp at hl; omega)
      by_cases h3 : s0.toNat < 128
      · rw [h2.1 h3]; simp
      · by_cases h4 : s = []
        · rw [h2.2.1 (by omega) h4]; simp
        · by_cases h5 : au.length = 16
          · obtain ⟨d, _, hd⟩ := h2.2.2.2 (by omega) h4 h5; rw [hd]; simp
          · rw [h2.2.2.1 (by omega) h4 h5]; simp
    | [], hl => simp at hl; omega
    | [_], hl => simp at hl; omega
    | [_, _], hl => simp at hl; omega
  · obtain ⟨m, hm⟩ := h.1 h1; rw [hm]; simp

theorem decode_ne_panic (H : Hash) (p : Packet) (k : Kind) (hk : k ≠ .vsa) (a : AVP) :
    Gen.decode H p k a ≠ .panic := by
  cases k with
  | string => exact encodeString_ne_panic a
  | taggedString => exact encodeTaggedString_ne_panic a
  | userPassword => exact encodeUserPassword_ne_panic H a _ _
  | tunnelPassword => exact encodeTunnelPassword_ne_panic H a _ _
  | octets => exact fun h => nomatch h
  | concatOctets => exact fun h => nomatch h
  | fixedOctets => exact fun h => nomatch h
  | ipv4 =>
    have h := C18_ipv4 a.typ ⟨0, 0, 0, 0⟩ a
    show a.encodeIpv4 ≠ .panic
    by_cases hl : a.value.length = 4
    · obtain ⟨y, hy, _⟩ := h.2.2.2.1 hl; rw [hy]; simp
    · rw [h.2.2.2.2 hl]; simp
  | ipv4Prefix =>
    have h := C19_ipv4_prefix a.typ [] a
    show a.encodeIpv4Prefix ≠ .panic
    by_cases hl : a.value.length = 6
    · rw [h.2.2.1 hl]; simp
    · rw [h.2.2.2 hl]; simp
  | ipv6 =>
    have h := C18_ipv6 a.typ ⟨List.replicate 16 0, by simp⟩ a
    show a.encodeIpv6 ≠ .panic
    by_cases hl : a.value.length = 16
    · obtain ⟨y, hy, _⟩ := h.2.2.2.1 hl; rw [hy]; simp
    · rw [h.2.2.2.2 hl]; simp
  | ipv6Prefix =>
    have h := C19_ipv6_prefix a.typ [] a
    show a.encodeIpv6Prefix ≠ .panic
    by_cases hl : 2 ≤ a.value.length
    · rw [h.2.2.1 hl]; simp
    · rw [h.2.2.2 (by omega)]; simp
  | date => exact (C23_date_read a).2.2
  | integer => exact encodeU32_ne_panic a
  | taggedInteger => exact encodeTaggedU32_ne_panic a
  | valueInteger => exact encodeU32_ne_panic a
  | taggedValueInteger => exact encodeTaggedU32_ne_panic a
  | short =>
    show a.encodeU16 ≠ .panic
    by_cases h : a.value.length = 2
    · obtain ⟨v, hv, _⟩ := (C17_u16_read a).1 h; rw [hv]; simp
    · rw [(C17_u16_read a).2 h]; simp
  | vsa => exact absurd rfl hk

theorem lookup_of_kind (H : Hash) (t : AVPType) (p : Packet) (k : Kind) (hk : Gen.hasLookupAll k = true) :
    Gen.lookup H t p k = (p.lookupAll t).head?.map (Gen.decode H p k) := by
  rw [← lookup_eq_head]
  cases k <;> first | rfl | cases hk

/-- **C32** `lookup_*` decodes the first attribute of its type, and is `None` exactly if there is none. -/
theorem C32_lookup_first (H : Hash) (t : AVPType) (p : Packet) (k : Kind) (hk : Gen.hasLookupAll k = true) :
    (Gen.lookup H t p k = none ↔ ∀ a ∈ p.attributes, a.typ ≠ t) ∧
    (∀ before a after, p.attributes = before ++ a :: after → (∀ b ∈ before, b.typ ≠ t) → a.typ = t →
      Gen.lookup H t p k = some (Gen.decode H p k a)) := by
  rw [lookup_of_kind H t p k hk]
  constructor
  · rw [Option.map_eq_none_iff, List.head?_eq_none_iff, lookupAll_eq, List.filter_eq_nil_iff]
    simp
  · intro before a after hp hb ha
    rw [lookupAll_eq, hp, List.filter_append, List.filter_cons]
    have : before.filter (fun a => decide (a.typ = t)) = [] := by
      rw [List.filter_eq_nil_iff]
      intro b h; simpa using hb b h
    rw [this]
    simp [ha]

/-- **C32** `lookup_all_*` returns all decoded values in order, or the first failure; it never panics, and
`lookup_*` is the first of `lookup_all_*`. -/
theorem C32_lookup_all (H : Hash) (t : AVPType) (p : Packet) (k : Kind) (hk : Gen.hasLookupAll k = true) :
    Collected (Gen.decode H p k) (p.attributes.filter (fun a => a.typ = t)) (Gen.lookupAll H t p k) ∧
    (Gen.lookup H t p k = none ↔ Gen.lookupAll H t p k = .ok []) ∧
    (∀ v vs, Gen.lookupAll H t p k = .ok (v :: vs) → Gen.lookup H t p k = some (.ok v)) ∧
    (∀ e, Gen.lookup H t p k = some (.err e) → Gen.lookupAll H t p k = .err e) := by
  have hv : k ≠ .vsa := by rintro rfl; cases hk
  have hc := collected_of_ne_panic (Gen.decode H p k) (decode_ne_panic H p k hv) (p.lookupAll t)
  refine ⟨by rw [← lookupAll_eq]; exact hc, ?_⟩
  rw [lookup_of_kind H t p k hk]
  unfold Gen.lookupAll
  cases hl : p.lookupAll t with
  | nil => simp [Gen.collect]
  | cons a as =>
    simp only [List.head?_cons, Option.map_some, reduceCtorEq, false_iff, Gen.collect]
    refine ⟨?_, ?_, ?_⟩
    · cases hd : Gen.decode H p k a with
      | ok v =>
        simp only [Out.bind_ok]
        rw [collect_eq]
        cases Gen.collect (Gen.decode H p k) as [] <;> simp
      | err e => simp
      | panic => simp
    · intro v vs
      cases hd : Gen.decode H p k a with
      | ok w =>
        simp only [Out.bind_ok]
        rw [collect_eq]
        cases Gen.collect (Gen.decode H p k) as [] with
        | ok ws =>
          simp only [Out.bind_ok, List.nil_append, List.cons_append, Out.ok.injEq, List.cons.injEq]
          rintro ⟨rfl, _⟩; rfl
        | err e => simp
        | panic => simp
      | err e => simp
      | panic => simp
    · intro e he
      rw [Option.some.inj he]
      simp

/-- Both outcomes of `lookup_all_*`: all values, and a broken second one. -/
example : (id (Gen.lookupAll Md5.md5 1 (Gen.addString 1 (samplePacket .AccessRequest) "cd") .string) :
    Out AVPError (List String)) = .ok ["ab", "cd"] := by decide +kernel
example : (id (Gen.lookupAll Md5.md5 1 (Gen.addOctets 1 (samplePacket .AccessRequest) [0xff]) .string) :
    Out AVPError (List String)) = .err (.DecodingError "invalid utf-8") := by decide +kernel

/-! ### Round trips -/

theorem lookupAll_single (p : Packet) (a : AVP) (t : AVPType) (hn : p.lookupAll t = []) (ha : a.typ = t) :
    (p.add a).lookupAll t = [a] := by
  rw [lookupAll_add, hn, ha]; simp

/-- **C31** What `add_*` puts into a packet without that attribute, `lookup_*` and `lookup_all_*` return. -/
theorem C31_add_lookup (H : Hash) (t : AVPType) (p p' : Packet) (k : Kind) (v : k.Arg) (w : k.Val)
    (hauth : p.authenticator.length = 16) (hn : ∀ a ∈ p.attributes, a.typ ≠ t)
    (hadd : Gen.add H t p k v = (p', .ok ())) (hw : readBack k v = some w) :
    Gen.lookup H t p' k = some (.ok w) ∧
    (Gen.hasLookupAll k = true → Gen.lookupAll H t p' k = .ok [w]) := by
  have hn : p.lookupAll t = [] := by
    rw [lookupAll_eq, List.filter_eq_nil_iff]; simpa using hn
  -- all families but `concatOctets` append one attribute whose decoding is `w`
  have one : ∀ a : AVP, a.typ = t → p' = p.add a → Gen.hasLookupAll k = true →
      Gen.decode H p k a = .ok w →
      Gen.lookup H t p' k = some (.ok w) ∧
      (Gen.hasLookupAll k = true → Gen.lookupAll H t p' k = .ok [w]) := by
    intro a ha hp hk hd
    have hl : p'.lookupAll t = [a] := by rw [hp]; exact lookupAll_single p a t hn ha
    have hd' : Gen.decode H p' k a = .ok w := by
      rw [← hd, hp]
      cases k <;> rfl
    refine ⟨?_, fun _ => ?_⟩
    · rw [lookup_of_kind H t p' k hk, hl]; simp [hd']
    · unfold Gen.lookupAll; rw [hl]; simp [Gen.collect, hd']
  cases k with
  | string =>
    change String at v w
    obtain rfl : v = w := Option.some.inj hw
    exact one (AVP.fromString t v) rfl (Prod.mk.inj hadd).1.symm rfl (C20_text t v ⟨t, []⟩).2.2.1
  | taggedString =>
    obtain ⟨tag, s⟩ := v
    have hp := (Prod.mk.inj hadd).1.symm
    cases tag with
    | some tag =>
      simp only [readBack] at hw
      split at hw
      · rename_i hr
        obtain rfl := Option.some.inj hw
        exact one (AVP.fromTaggedString t (some tag) s) rfl hp rfl
          ((C21_tagged_text t s tag.value).2.2.1 hr.1 hr.2)
      · cases hw
    | none =>
      simp only [readBack] at hw
      split at hw
      · rename_i hr
        obtain rfl := Option.some.inj hw
        refine one (AVP.fromTaggedString t none s) rfl hp rfl ?_
        unfold startsAboveTags at hr
        split at hr
        · cases hr
        · rename_i c rest hc
          exact (C21_tagged_text t s 0).2.2.2 c rest hc (by simpa using hr)
      · cases hw
  | userPassword =>
    change Bytes at v w
    obtain rfl := Option.some.inj hw
    have hok := (C25_add_outcome H t p .userPassword v hauth)
    have hadd' : addable p .userPassword v := by
      apply Classical.byContradiction
      intro h
      obtain ⟨e, he⟩ := hok.2 h
      rw [he] at hadd
      cases (Prod.mk.inj hadd).2
    obtain ⟨a, ha, hr, _⟩ := C27_user_password_reveal H t v p.secret p.authenticator hadd'.1 hadd'.2 hauth
    have hp : Gen.add H t p .userPassword v = (p.add a, .ok ()) := by
      simp only [Gen.add, Gen.addUserPassword, Packet.getSecret, Packet.getAuthenticator, ha, Gen.addChecked]
    rw [hp] at hadd
    obtain ⟨c, hc, _⟩ := (C26_user_password_hiding H t v p.secret p.authenticator).1 hadd'.1 hadd'.2 hauth
    have : a = ⟨t, c⟩ := by rw [ha] at hc; exact Out.ok.inj hc
    exact one a (by rw [this]) (Prod.mk.inj hadd).1.symm rfl hr
  | tunnelPassword =>
    obtain ⟨⟨r0, r1⟩, tag, v⟩ := v
    simp only [readBack] at hw
    split at hw
    · rename_i hl
      obtain rfl := Option.some.inj hw
      have hs : p.secret ≠ [] := by
        intro hs
        have := (C29_tunnel_password_hiding H r0 r1 t tag v p.secret p.authenticator).2.1 (by omega) hs
        simp only [Gen.add, Gen.addTunnelPassword, Packet.getSecret, Packet.getAuthenticator, this,
          Gen.addChecked] at hadd
        cases (Prod.mk.inj hadd).2
      obtain ⟨a, ha, hr, _⟩ := C29_tunnel_password_reveal H r0 r1 t tag v p.secret p.authenticator hs hauth
      obtain ⟨s0, c, hc, _⟩ := (C29_tunnel_password_hiding H r0 r1 t tag v p.secret p.authenticator).1 hs hauth
      have hp : Gen.add H t p .tunnelPassword ((r0, r1), tag, v) = (p.add a, .ok ()) := by
        simp only [Gen.add, Gen.addTunnelPassword, Packet.getSecret, Packet.getAuthenticator, ha,
          Gen.addChecked]
      rw [hp] at hadd
      have : a.typ = t := by rw [ha] at hc; rw [Out.ok.inj hc]
      have et : (⟨tag.elim 0 Tag.getValue⟩ : Tag) = tag.getD ⟨0⟩ := by cases tag <;> rfl
      have hr' := hr hl
      rw [et] at hr'
      exact one a this (Prod.mk.inj hadd).1.symm rfl hr'
    · cases hw
  | octets =>
    change Bytes at v w
    obtain rfl : v = w := Option.some.inj hw
    exact one ⟨t, v⟩ rfl (Prod.mk.inj hadd).1.symm rfl rfl
  | concatOctets =>
    change Bytes at v w
    simp only [readBack] at hw
    split at hw
    · cases hw
    · rename_i hv
      obtain rfl := Option.some.inj hw
      refine ⟨?_, fun h => nomatch h⟩
      rw [← (Prod.mk.inj hadd).1]
      have := (C24_concat_lookup t p v []).1 hn
      rw [if_neg hv] at this
      simp only [Gen.lookup, this]
      rfl
  | fixedOctets n =>
    change Bytes at v w
    obtain rfl : v = w := Option.some.inj hw
    have h25 := C25_fixed_length n t p v
    by_cases hl : v.length = n
    · rw [show Gen.add H t p (.fixedOctets n) v = _ from h25.1 hl] at hadd
      exact one ⟨t, v⟩ rfl (Prod.mk.inj hadd).1.symm rfl rfl
    · rw [show Gen.add H t p (.fixedOctets n) v = _ from h25.2 hl] at hadd
      cases (Prod.mk.inj hadd).2
  | ipv4 =>
    change Ipv4Addr at v w
    obtain rfl : v = w := Option.some.inj hw
    exact one (AVP.fromIpv4 t v) rfl (Prod.mk.inj hadd).1.symm rfl rfl
  | ipv4Prefix =>
    change Bytes at v w
    obtain rfl : v = w := Option.some.inj hw
    have h19 := C19_ipv4_prefix t v ⟨t, []⟩
    by_cases hl : v.length = 4
    · obtain ⟨h1, h2⟩ := h19.1 hl
      simp only [Gen.add, Gen.addIpv4Prefix, h1, Gen.addChecked] at hadd
      exact one _ rfl (Prod.mk.inj hadd).1.symm rfl h2
    · simp only [Gen.add, Gen.addIpv4Prefix, h19.2.1 hl, Gen.addChecked] at hadd
      cases (Prod.mk.inj hadd).2
  | ipv6 =>
    change Ipv6Addr at v w
    obtain rfl : v = w := Option.some.inj hw
    exact one (AVP.fromIpv6 t v) rfl (Prod.mk.inj hadd).1.symm rfl (C18_ipv6 t v ⟨t, []⟩).2.2.1
  | ipv6Prefix =>
    change Bytes at v w
    obtain rfl : v = w := Option.some.inj hw
    have h19 := C19_ipv6_prefix t v ⟨t, []⟩
    by_cases hl : v.length ≤ 16
    · obtain ⟨l, h1, _, h2⟩ := h19.1 hl
      simp only [Gen.add, Gen.addIpv6Prefix, h1, Gen.addChecked] at hadd
      exact one _ rfl (Prod.mk.inj hadd).1.symm rfl h2
    · simp only [Gen.add, Gen.addIpv6Prefix, h19.2.1 (by omega), Gen.addChecked] at hadd
      cases (Prod.mk.inj hadd).2
  | date =>
    change DateTime at v w
    obtain rfl := Option.some.inj hw
    exact one (AVP.fromDate t v) rfl (Prod.mk.inj hadd).1.symm rfl (C23_date t v).2.1
  | integer =>
    change UInt32 at v w
    obtain rfl : v = w := Option.some.inj hw
    exact one (AVP.fromU32 t v) rfl (Prod.mk.inj hadd).1.symm rfl (C17_u32_write t v).2.2.2
  | valueInteger =>
    change UInt32 at v w
    obtain rfl : v = w := Option.some.inj hw
    exact one (AVP.fromU32 t v) rfl (Prod.mk.inj hadd).1.symm rfl (C17_u32_write t v).2.2.2
  | taggedInteger =>
    obtain ⟨tag, v⟩ := v
    simp only [readBack] at hw
    split at hw
    · rename_i hl
      obtain rfl := Option.some.inj hw
      have et : (⟨tag.elim 0 Tag.getValue⟩ : Tag) = tag.getD ⟨0⟩ := by cases tag <;> rfl
      have h := (C22_tagged_u32 t tag v).2.1 (by rw [← et] at hl; exact hl)
      rw [et] at h
      exact one (AVP.fromTaggedU32 t tag v) rfl (Prod.mk.inj hadd).1.symm rfl h
    · cases hw
  | taggedValueInteger =>
    obtain ⟨tag, v⟩ := v
    simp only [readBack] at hw
    split at hw
    · rename_i hl
      obtain rfl := Option.some.inj hw
      have et : (⟨tag.elim 0 Tag.getValue⟩ : Tag) = tag.getD ⟨0⟩ := by cases tag <;> rfl
      have h := (C22_tagged_u32 t tag v).2.1 (by rw [← et] at hl; exact hl)
      rw [et] at h
      exact one (AVP.fromTaggedU32 t tag v) rfl (Prod.mk.inj hadd).1.symm rfl h
    · cases hw
  | short =>
    change UInt16 at v w
    obtain rfl : v = w := Option.some.inj hw
    exact one (AVP.fromU16 t v) rfl (Prod.mk.inj hadd).1.symm rfl (C17_u16_write t v).2.2.2
  | vsa => exact v.elim

/-! ### C62: repeated attributes -/

/-- A successful `add_*` appends one attribute, and the same one for whatever attributes are already there. -/
theorem add_one (H : Hash) (t : AVPType) (p p' : Packet) (k : Kind) (v : k.Arg) (hk : Gen.hasLookupAll k = true)
    (hadd : Gen.add H t p k v = (p', .ok ())) :
    ∃ a, p' = p.add a ∧ Gen.add H t { p with attributes := [] } k v = ({ p with attributes := [] }.add a, .ok ()) := by
  have chk : ∀ x : Out AVPError AVP, Gen.addChecked p x = (p', .ok ()) →
      ∃ a, p' = p.add a ∧ Gen.addChecked { p with attributes := [] } x = ({ p with attributes := [] }.add a, .ok ()) := by
    intro x hx
    cases x with
    | ok a => exact ⟨a, (Prod.mk.inj hx).1.symm, rfl⟩
    | err e => cases (Prod.mk.inj hx).2
    | panic => cases (Prod.mk.inj hx).2
  cases k with
  | userPassword => exact chk _ hadd
  | tunnelPassword => obtain ⟨⟨r0, r1⟩, tag, v⟩ := v; exact chk _ hadd
  | ipv4Prefix => exact chk _ hadd
  | ipv6Prefix => exact chk _ hadd
  | fixedOctets n =>
    change Bytes at v
    simp only [Gen.add, Gen.addFixedOctets] at hadd ⊢
    split at hadd
    · cases (Prod.mk.inj hadd).2
    · rename_i hn
      rw [if_neg hn]
      exact ⟨_, (Prod.mk.inj hadd).1.symm, rfl⟩
  | concatOctets => cases hk
  | vsa => cases hk
  | taggedString => obtain ⟨tag, v⟩ := v; exact ⟨_, (Prod.mk.inj hadd).1.symm, rfl⟩
  | taggedInteger => obtain ⟨tag, v⟩ := v; exact ⟨_, (Prod.mk.inj hadd).1.symm, rfl⟩
  | taggedValueInteger => obtain ⟨tag, v⟩ := v; exact ⟨_, (Prod.mk.inj hadd).1.symm, rfl⟩
  | _ => exact ⟨_, (Prod.mk.inj hadd).1.symm, rfl⟩

theorem collect_append {α : Type} (f : AVP → Out AVPError α) (as bs : List AVP) (acc : List α) :
    Gen.collect f (as ++ bs) acc = Gen.collect f as acc >>= fun vs => Gen.collect f bs vs := by
  induction as generalizing acc with
  | nil => rfl
  | cons a as ih =>
    simp only [List.cons_append, Gen.collect]
    cases f a with
    | ok v => simp only [Out.bind_ok]; exact ih _
    | err e => rfl
    | panic => rfl

/-- **C62** One more `add_*` puts its value at the end of what `lookup_all_*` returns. -/
theorem C62_add_appends (H : Hash) (t : AVPType) (p p' : Packet) (k : Kind) (v : k.Arg) (w : k.Val) (vs : List k.Val)
    (hk : Gen.hasLookupAll k = true) (hauth : p.authenticator.length = 16)
    (hadd : Gen.add H t p k v = (p', .ok ())) (hw : readBack k v = some w) (hvs : Gen.lookupAll H t p k = .ok vs) :
    Gen.lookupAll H t p' k = .ok (vs ++ [w]) := by
  obtain ⟨a, hp, hbase⟩ := add_one H t p p' k v hk hadd
  have h31 := (C31_add_lookup H t { p with attributes := [] } _ k v w hauth (by simp) hbase hw).2 hk
  have hd : ∀ q : Packet, q.secret = p.secret → q.authenticator = p.authenticator → Gen.decode H q k = Gen.decode H p k := by
    intro q h1 h2
    funext a
    obtain ⟨qc, qi, qa, qs, ql⟩ := q
    subst h1 h2
    cases k <;> rfl
  obtain ⟨as, hty, happ⟩ := add_appends H t p k v
  rw [hadd] at happ
  have hta : a.typ = t := by
    have : p.attributes ++ [a] = p.attributes ++ as := by
      have := congrArg Packet.attributes (hp.symm.trans happ)
      exact this
    exact hty a (List.append_cancel_left this ▸ List.mem_singleton.2 rfl)
  unfold Gen.lookupAll at h31 hvs ⊢
  rw [show (Packet.add { p with attributes := [] } a).lookupAll t = [a] from
    lookupAll_single _ a t (by rw [lookupAll_eq]; rfl) hta,
    hd (Packet.add { p with attributes := [] } a) rfl rfl] at h31
  rw [hp, lookupAll_add, hta, if_pos rfl, hd (p.add a) rfl rfl, collect_append, hvs]
  simp only [Out.bind_ok]
  rw [collect_eq, h31]
  rfl

/-- Several calls of the same `add_*`, all successful. -/
inductive AddedAll (H : Hash) (t : AVPType) (k : Kind) : Packet → List k.Arg → Packet → Prop
  | nil (p : Packet) : AddedAll H t k p [] p
  | cons (p p' p'' : Packet) (v : k.Arg) (vs : List k.Arg) :
      Gen.add H t p k v = (p', .ok ()) → AddedAll H t k p' vs p'' → AddedAll H t k p (v :: vs) p''

/-- **C62** Any number of `add_*` calls: `lookup_all_*` returns what was there before followed by the values in the
order of the calls, and `lookup_*` the first of these. -/
theorem C62_adds_accumulate (H : Hash) (t : AVPType) (p p' : Packet) (k : Kind) (args : List k.Arg)
    (ws old : List k.Val) (hk : Gen.hasLookupAll k = true) (hauth : p.authenticator.length = 16)
    (hadd : AddedAll H t k p args p') (hw : args.map (readBack k) = ws.map some)
    (hold : Gen.lookupAll H t p k = .ok old) :
    Gen.lookupAll H t p' k = .ok (old ++ ws) ∧
    (∀ x xs, old ++ ws = x :: xs → Gen.lookup H t p' k = some (.ok x)) := by
  have key : Gen.lookupAll H t p' k = .ok (old ++ ws) := by
    induction hadd generalizing ws old with
    | nil p =>
      cases ws with
      | nil => simpa using hold
      | cons w ws => cases hw
    | cons p q p' v vs h1 h2 ih =>
      cases ws with
      | nil => cases hw
      | cons w ws =>
        obtain ⟨hw1, hw2⟩ := List.cons.inj hw
        obtain ⟨as, _, happ⟩ := add_appends H t p k v
        rw [h1] at happ
        have := ih ws (old ++ [w]) (by rw [show q = _ from happ]; exact hauth) hw2
          (C62_add_appends H t p q k v w old hk hauth h1 hw1 hold)
        simpa using this
  exact ⟨key, fun x xs hx => (C32_lookup_all H t p' k hk).2.2.1 x xs (hx ▸ key)⟩

/-- **C62** `delete_*` removes them all again. -/
theorem C62_delete (H : Hash) (t : AVPType) (p : Packet) (k : Kind) (hk : Gen.hasLookupAll k = true) :
    Gen.lookupAll H t (Gen.delete t p) k = .ok [] ∧ Gen.lookup H t (Gen.delete t p) k = none := by
  have h := (C32_lookup_first H t (Gen.delete t p) k hk).1.2 (by
    intro a ha
    simp only [Gen.delete, Packet.delete, Attributes.del, List.mem_filter] at ha
    simpa using ha.2)
  exact ⟨(C32_lookup_all H t _ k hk).2.1.1 h, h⟩

/-- Non-vacuity: two user names are added to a packet that already has one, and three integers. -/
example : ∃ p', AddedAll Md5.md5 1 .string (samplePacket .AccessRequest) ["cd", "ef"] p' ∧
    Gen.lookupAll Md5.md5 1 (samplePacket .AccessRequest) .string = .ok ["ab"] ∧
    (id (Gen.lookupAll Md5.md5 1 p' .string) : Out AVPError (List String)) = .ok ["ab", "cd", "ef"] :=
  ⟨_, .cons _ _ _ _ _ rfl (.cons _ _ _ _ _ rfl (.nil _)),
    (show (id (Gen.lookupAll Md5.md5 1 (samplePacket .AccessRequest) .string) : Out AVPError (List String)) =
      .ok ["ab"] by decide +kernel), by decide +kernel⟩

/-! ### Over the wire -/

theorem add_reachable (H : Hash) (t : AVPType) (p : Packet) (k : Kind) (v : k.Arg) (hr : Reachable p) :
    Reachable (Gen.add H t p k v).1 := by
  obtain ⟨as, _, h⟩ := add_appends H t p k v
  rw [h]
  exact .extend p as hr

/-- **C28** A password added to an Access-Request is read by the receiver. The size hypothesis excludes the
packets of 64 KiB and more of C06. -/
theorem C28_password_over_the_wire (H : Hash) (ck : Bool) (t : AVPType) (p p' : Packet) (pw bs : Bytes)
    (hr : Reachable p) (hc : p.code = .AccessRequest) (hn : ∀ a ∈ p.attributes, a.typ ≠ t)
    (hadd : Gen.addUserPassword H t p pw = (p', .ok ()))
    (hsz : wireSize p'.attributes < 65516) (he : Packet.encode H ck p' = .ok bs) :
    ∃ q, Packet.decode bs p.secret = .ok q ∧
      Gen.lookup H t q .userPassword = some (.ok (beforeZero pw)) := by
  obtain ⟨as, _, happ⟩ := add_appends H t p .userPassword pw
  have happ' : p' = { p with attributes := p.attributes ++ as } := by
    rw [← happ, show Gen.add H t p .userPassword pw = _ from hadd]
  have hr' : Reachable p' := by rw [happ']; exact .extend p as hr
  have hd := (C04_encode_decode H ck p' bs hr' hsz he).2 (by rw [happ']; exact .inl hc)
  refine ⟨p', by rw [happ'] at hd ⊢; exact hd, ?_⟩
  exact (C31_add_lookup H t p p' .userPassword pw (beforeZero pw) (reachable_auth hr) hn hadd rfl).1

/-- The hypotheses hold for a concrete request under MD5. -/
example : (match Gen.addUserPassword Md5.md5 2 (samplePacket .AccessRequest) [0x70, 0x77] with
    | (p', .ok ()) => (match Packet.encode Md5.md5 true p' with
      | .ok bs => decide (bs.length = 45)
      | _ => false)
    | _ => false) = true := by decide +kernel

/-- **C30**, the part that holds: the tunnel password in a response can be read with the secret and the
*request* authenticator. Missing from C30: `lookup_tunnel_password` on the decoded response uses the
response authenticator instead, see `C30_counterexample`. -/
theorem C30_tunnel_password_partial (H : Hash) (ck : Bool) (t : AVPType) (req resp resp' : Packet)
    (code : Code) (es : List Edit) (r0 r1 : UInt8) (tag : Option Tag) (pw bs : Bytes) (hr : Reachable req)
    (hresp : resp = runEdits (req.makeResponsePacket code) es) (hn : ∀ a ∈ resp.attributes, a.typ ≠ t)
    (hadd : Gen.addTunnelPassword H r0 r1 t resp tag pw = (resp', .ok ())) (hpw : pw.length ≤ 240)
    (hsz : wireSize resp'.attributes < 65516) (he : Packet.encode H ck resp' = .ok bs) :
    ∃ q a, Packet.decode bs req.secret = .ok q ∧ q.lookup t = some a ∧
      a.encodeTunnelPassword H req.secret req.authenticator = .ok (beforeZero pw, tag.getD ⟨0⟩) := by
  have hr1 : Reachable resp := by
    rw [hresp]; exact runEdits_reachable _ es (.makeResponsePacket _ _ hr)
  have hf := runEdits_fields (req.makeResponsePacket code) es
  have hs1 : resp.secret = req.secret := by rw [hresp, hf.2.2.2]; rfl
  have ha1 : resp.authenticator = req.authenticator := by rw [hresp, hf.2.2.1]; rfl
  obtain ⟨as, has, happ⟩ := add_appends H t resp .tunnelPassword ((r0, r1), tag, pw)
  have happ' : resp' = { resp with attributes := resp.attributes ++ as } := by
    rw [← happ, show Gen.add H t resp .tunnelPassword ((r0, r1), tag, pw) = _ from hadd]
  have hr' : Reachable resp' := by rw [happ']; exact .extend resp as hr1
  have hd := (C04_encode_decode H ck resp' bs hr' hsz he).1
  have hl := (C31_add_lookup H t resp resp' .tunnelPassword ((r0, r1), tag, pw)
    (beforeZero pw, tag.getD ⟨0⟩) (reachable_auth hr1) hn hadd (by simp [readBack, hpw])).1
  have hs2 : resp'.secret = req.secret := by rw [happ']; exact hs1
  have ha2 : resp'.authenticator = req.authenticator := by rw [happ']; exact ha1
  have hl' : (resp'.lookup t).map (Gen.decode H resp' .tunnelPassword)
      = some (.ok (beforeZero pw, tag.getD ⟨0⟩)) := hl
  rw [Option.map_eq_some_iff] at hl'
  obtain ⟨a, ha, hda⟩ := hl'
  refine ⟨{ resp' with authenticator := authenticatorOf bs }, a, by rw [← hs2]; exact hd, ha, ?_⟩
  have : Gen.decode H resp' .tunnelPassword a
      = a.encodeTunnelPassword H resp'.secret resp'.authenticator := rfl
  rw [this, hs2, ha2] at hda
  exact hda

/-- **C30** is false: under MD5 a client reading the tunnel password of a concrete Access-Accept with
`lookup_tunnel_password` gets other bytes than the server put in. -/
theorem C30_counterexample :
    ∃ req resp' : Packet, ∃ pw bs : Bytes, ∃ q : Packet, Reachable req ∧
      Gen.addTunnelPassword Md5.md5 1 2 69 (req.makeResponsePacket .AccessAccept) (some ⟨1⟩) pw
        = (resp', .ok ()) ∧
      Packet.encode Md5.md5 true resp' = .ok bs ∧ Packet.decode bs req.secret = .ok q ∧
      Gen.lookup Md5.md5 69 q .tunnelPassword ≠ some (.ok (pw, (⟨1⟩ : Tag))) := by
  have key : ∀ req : Packet, ∀ pw : Bytes,
      (match Gen.addTunnelPassword Md5.md5 1 2 69 (req.makeResponsePacket .AccessAccept) (some ⟨1⟩) pw with
      | (resp', .ok ()) => (match Packet.encode Md5.md5 true resp' with
        | .ok bs => (match Packet.decode bs req.secret with
          | .ok q => (match q.lookup 69 with
            | some a => decide (a.encodeTunnelPassword Md5.md5 q.secret q.authenticator ≠ .ok (pw, ⟨1⟩))
            | none => false)
          | _ => false)
        | _ => false)
      | _ => false) = true →
      ∃ resp' : Packet, ∃ bs : Bytes, ∃ q : Packet,
      Gen.addTunnelPassword Md5.md5 1 2 69 (req.makeResponsePacket .AccessAccept) (some ⟨1⟩) pw
        = (resp', .ok ()) ∧
      Packet.encode Md5.md5 true resp' = .ok bs ∧ Packet.decode bs req.secret = .ok q ∧
      Gen.lookup Md5.md5 69 q .tunnelPassword ≠ some (.ok (pw, (⟨1⟩ : Tag))) := by
    intro req pw h
    split at h
    · rename_i resp' h1
      split at h
      · rename_i bs h2
        split at h
        · rename_i q h3
          split at h
          · rename_i a h4
            refine ⟨resp', bs, q, h1, h2, h3, ?_⟩
            have e : Gen.lookup Md5.md5 69 q .tunnelPassword
                = some (a.encodeTunnelPassword Md5.md5 q.secret q.authenticator) := by
              simp only [Gen.lookup, h4, Option.map_some]
              rfl
            rw [e]
            intro heq
            exact (of_decide_eq_true h) (Option.some.inj heq)
          · cases h
        · cases h
      · cases h
    · cases h
  obtain ⟨resp', bs, q, h⟩ := key (samplePacket .AccessRequest) [0x70, 0x77] (by decide +kernel)
  exact ⟨_, resp', _, bs, q, samplePacket_reachable _, h⟩

/-! ### C56: the accessors never panic -/

/-- **C56** On every packet, however it came about, `lookup_*` and `lookup_all_*` of every family return (a value, an
error or nothing) and `add_*` returns for every argument; on an error the packet is unchanged. -/
theorem C56_accessors_never_panic (H : Hash) (t : AVPType) (p : Packet) (k : Kind) :
    (∀ o, Gen.lookup H t p k = some o → o ≠ .panic) ∧
    (k ≠ .vsa → Gen.lookupAll H t p k ≠ .panic) ∧
    (∀ v : k.Arg, (Gen.add H t p k v).2 ≠ .panic ∧
      ((∃ e, (Gen.add H t p k v).2 = .err e) → (Gen.add H t p k v).1 = p)) := by
  refine ⟨?_, ?_, ?_⟩
  · intro o ho
    by_cases hk : Gen.hasLookupAll k = true
    · rw [lookup_of_kind H t p k hk, Option.map_eq_some_iff] at ho
      obtain ⟨a, _, rfl⟩ := ho
      exact decode_ne_panic H p k (by rintro rfl; cases hk) a
    · cases k <;> first | exact absurd rfl hk | skip
      · simp only [Gen.lookup] at ho
        cases hl : Gen.lookupConcatOctets t p with
        | none => rw [hl] at ho; cases ho
        | some v => rw [hl] at ho; cases ho; exact fun h => nomatch h
      · simp [Gen.lookup] at ho
  · intro hv
    have := collected_of_ne_panic (Gen.decode H p k) (decode_ne_panic H p k hv) (p.lookupAll t)
    unfold Gen.lookupAll
    generalize Gen.collect (Gen.decode H p k) (p.lookupAll t) [] = r at this
    generalize p.lookupAll t = l at this
    cases this <;> exact fun h => nomatch h
  · have hchk : ∀ a : Out AVPError AVP, a ≠ .panic → (Gen.addChecked p a).2 ≠ .panic ∧
        ((∃ e, (Gen.addChecked p a).2 = .err e) → (Gen.addChecked p a).1 = p) := by
      intro a ha
      cases a with
      | ok v => simp [Gen.addChecked]
      | err e => simp [Gen.addChecked]
      | panic => exact absurd rfl ha
    intro v
    cases k with
    | userPassword =>
      refine hchk _ ?_
      unfold AVP.fromUserPassword
      repeat' split
      all_goals simp
    | tunnelPassword =>
      obtain ⟨⟨r0, r1⟩, tag, v⟩ := v
      refine hchk _ ?_
      unfold AVP.fromTunnelPassword
      simp only
      repeat' split
      all_goals simp
    | ipv4Prefix =>
      refine hchk _ ?_
      unfold AVP.fromIpv4Prefix
      extract_lets
      split <;> exact fun h => nomatch h
    | ipv6Prefix =>
      refine hchk _ ?_
      unfold AVP.fromIpv6Prefix
      extract_lets
      split <;> exact fun h => nomatch h
    | fixedOctets n =>
      show (Gen.addFixedOctets n t p v).2 ≠ .panic ∧ _
      simp only [Gen.add, Gen.addFixedOctets]
      split <;> simp
    | vsa => exact nomatch v
    | taggedString => obtain ⟨tag, v⟩ := v; simp [Gen.add]
    | taggedInteger => obtain ⟨tag, v⟩ := v; simp [Gen.add]
    | taggedValueInteger => obtain ⟨tag, v⟩ := v; simp [Gen.add]
    | _ => simp [Gen.add]

/-- A hostile packet: empty and oversized values for types that are read as text, tagged text, password and date. -/
example : (Gen.lookup Md5.md5 64 ((samplePacket .AccessRequest).add ⟨64, []⟩) .taggedInteger).isSome = true ∧
    (Gen.lookup Md5.md5 69 ((samplePacket .AccessRequest).add ⟨69, []⟩) .tunnelPassword).isSome = true := by
  decide +kernel

end Radius

import Verif.Lemmas.Net
import Verif.Props.Server
/-! # C54: request keys tell clients apart -/
namespace Radius
open Spec Server

theorem display_v4_v6 (ip : Ipv4Addr) (port : UInt16) (ip' : Ipv6Addr) (port' : UInt16) (f s : UInt32) :
    (SocketAddr.v4 ip port).displayChars ≠ (SocketAddr.v6 ip' port' f s).displayChars := by
  have h6 : (SocketAddr.v6 ip' port' f s).displayChars.head? = some '[' := by
    simp only [SocketAddr.displayChars]; split <;> rfl
  intro h
  rw [← h] at h6
  simp only [SocketAddr.displayChars, Ipv4Addr.display, List.append_assoc] at h6
  cases hd : fmtDec ip.a.toNat with
  | nil => exact fmtDec_ne_nil _ hd
  | cons c cs =>
    rw [hd] at h6
    simp at h6
    have := fmtDec_num ip.a.toNat c (by rw [hd]; simp)
    rw [h6] at this
    exact absurd this (by decide)

theorem uint16_ext {a b : UInt16} (h : a.toNat = b.toNat) : a = b := UInt16.toNat_inj.1 h
theorem uint32_ext {a b : UInt32} (h : a.toNat = b.toNat) : a = b := UInt32.toNat_inj.1 h

/-- The text of an IPv6 socket address in one form. -/
theorem displayChars_v6 (ip : Ipv6Addr) (port : UInt16) (f s : UInt32) :
    (SocketAddr.v6 ip port f s).displayChars =
      '[' :: (ip.display ++ (if s.toNat = 0 then ']' :: ':' :: fmtDec port.toNat
        else '%' :: (fmtDec s.toNat ++ ']' :: ':' :: fmtDec port.toNat))) := by
  simp only [SocketAddr.displayChars]
  split <;> simp [show "]:".toList = [']', ':'] from rfl]

/-- **C54** Two socket addresses have the same text exactly if they are the same endpoint. -/
theorem C54_address_text (x y : SocketAddr) : x.display = y.display ↔ sameEndpoint x y := by
  have hs : x.display = y.display ↔ x.displayChars = y.displayChars := by
    unfold SocketAddr.display
    constructor
    · intro h; exact String.ofList_injective h
    · intro h; rw [h]
  rw [hs]
  have n4 : ∀ ip : Ipv4Addr, ':' ∉ ip.display := by
    intro ip hm
    rcases ip.display_chars ':' hm with h | h <;> exact absurd h (by decide)
  have n6 : ∀ (ip : Ipv6Addr) c, c = ']' ∨ c = '%' → c ∉ ip.display := by
    intro ip c hc hm
    rcases hc with rfl | rfl <;> rcases ip.display_chars _ hm with h | h | h <;> exact absurd h (by decide)
  cases x with
  | v4 ip port =>
    cases y with
    | v6 ip' port' f' s' =>
      exact ⟨fun h => absurd h (display_v4_v6 _ _ _ _ _ _), fun h => h.elim⟩
    | v4 ip' port' =>
      constructor
      · intro h
        obtain ⟨h1, _, h2⟩ := split_at (n4 _) (n4 _) h
        exact ⟨Ipv4Addr.display_inj h1, uint16_ext (fmtDec_inj h2)⟩
      · rintro ⟨rfl, rfl⟩; rfl
  | v6 ip port f s =>
    cases y with
    | v4 ip' port' =>
      exact ⟨fun h => absurd h.symm (display_v4_v6 _ _ _ _ _ _), fun h => h.elim⟩
    | v6 ip' port' f' s' =>
      rw [displayChars_v6, displayChars_v6]
      constructor
      · intro h
        have h := (List.cons.inj h).2
        by_cases h1 : s.toNat = 0 <;> by_cases h2 : s'.toNat = 0
        · rw [if_pos h1, if_pos h2] at h
          obtain ⟨e1, _, e2⟩ := split_at (n6 _ _ (.inl rfl)) (n6 _ _ (.inl rfl)) h
          exact ⟨Ipv6Addr.display_inj e1, uint16_ext (fmtDec_inj (List.cons.inj e2).2), uint32_ext (by omega)⟩
        · rw [if_pos h1, if_neg h2] at h
          obtain ⟨_, e, _⟩ := split_at (n6 _ _ (.inr rfl)) (n6 _ _ (.inl rfl)) h
          exact absurd e (by decide)
        · rw [if_neg h1, if_pos h2] at h
          obtain ⟨_, e, _⟩ := split_at (n6 _ _ (.inl rfl)) (n6 _ _ (.inr rfl)) h
          exact absurd e (by decide)
        · rw [if_neg h1, if_neg h2] at h
          obtain ⟨e1, _, e2⟩ := split_at (n6 _ _ (.inr rfl)) (n6 _ _ (.inr rfl)) h
          have nd : ∀ n, ']' ∉ fmtDec n := fun n => not_mem_of_num (fmtDec_num n) rfl
          obtain ⟨e3, _, e4⟩ := split_at (nd _) (nd _) e2
          exact ⟨Ipv6Addr.display_inj e1, uint16_ext (fmtDec_inj (List.cons.inj e4).2), uint32_ext (fmtDec_inj e3)⟩
      · rintro ⟨rfl, rfl, rfl⟩; rfl

/-- **C54** A request is dropped as a duplicate only because of another request from the same endpoint with the same
identifier, which was admitted before and whose key has not been released. -/
theorem C54_duplicate_same_client {H : Hash} {s : State} {tr pre post : List Event} (h : Exec H s tr) (i : Nat)
    (k : RequestKey) (htr : tr = pre ++ .duplicate i k :: post) :
    ∃ j d d' rem rem' loc loc' secret secret' p p', j ≠ i ∧
      .received i d rem loc ∈ tr ∧ .received j d' rem' loc' ∈ tr ∧
      .secret i rem (.ok secret) ∈ tr ∧ .secret j rem' (.ok secret') ∈ tr ∧
      (∃ n, Packet.decode (d.take n) secret = .ok p) ∧ (∃ n, Packet.decode (d'.take n) secret' = .ok p') ∧
      sameEndpoint rem rem' ∧ p.identifier = p'.identifier ∧ heldBy pre j k := by
  obtain ⟨j, hj, hheld⟩ := (C38_duplicate_check h i k).1 htr
  have hi : .duplicate i k ∈ tr := by rw [htr]; simp
  have hja : .admitted j k ∈ tr := by rw [htr]; exact List.mem_append_left _ hheld.1
  obtain ⟨pre1, d, rem, loc, post1, e1⟩ := received_of_event h hi rfl
  obtain ⟨pre2, d', rem', loc', post2, e2⟩ := received_of_event h hja rfl
  obtain ⟨secret, p, hs, hacc, hk⟩ := C38_keys h i d rem loc k e1 (.inr hi)
  obtain ⟨secret', p', hs', hacc', hk'⟩ := C38_keys h j d' rem' loc' k e2 (.inl hja)
  rw [hk, RequestKey.mk.injEq] at hk'
  exact ⟨j, d, d', rem, rem', loc, loc', secret, secret', p, p', hj, by rw [e1]; simp, by rw [e2]; simp, hs, hs',
    ⟨_, hacc.2.1⟩, ⟨_, hacc'.2.1⟩, (C54_address_text rem rem').1 hk'.1, hk'.2, hheld⟩

/-- **C54** With C36: at any time at most one handler is running for an endpoint and an identifier. IPv6 addresses of an
endpoint may differ in their flow label. -/
theorem C54_one_handler_per_endpoint {H : Hash} {s : State} {tr : List Event} (h : Exec H s tr) (i j : Nat)
    (r r' : Request) (hi : .started i r ∈ tr) (hi' : ∀ o, .ended i o ∉ tr) (hj : .started j r' ∈ tr)
    (hj' : ∀ o, .ended j o ∉ tr) (ha : sameEndpoint r.remoteAddr r'.remoteAddr)
    (hid : r.packet.identifier = r'.packet.identifier) : i = j :=
  one_handler_per_text h i j r r' hi hi' hj hj' ((C54_address_text _ _).2 ha) hid

/-- An execution with a dropped duplicate is `demo_exec`. Texts of addresses: compression of the longest run of zeros,
a mapped IPv4 address, a scope. -/
example : ∃ s tr, Exec Md5.md5 s tr ∧ .duplicate 1 ⟨"10.0.0.1:5000", 7⟩ ∈ tr := by
  obtain ⟨s, tr, h, _, _, h2, _⟩ := demo_exec
  exact ⟨s, tr, h, h2⟩
example : (SocketAddr.v6 ⟨[0x20, 1, 0xd, 0xb8, 0, 0, 0, 0, 0, 1, 0, 0, 0, 0, 0, 1], rfl⟩ 1812 7 0).displayChars
    = "[2001:db8::1:0:0:1]:1812".toList := by decide +kernel
example : (SocketAddr.v6 ⟨[0, 0, 0, 0, 0, 0, 0, 0, 0, 0, 0xff, 0xff, 10, 0, 0, 1], rfl⟩ 1 0 3).displayChars
    = "[::ffff:10.0.0.1%3]:1".toList := by decide +kernel

end Radius

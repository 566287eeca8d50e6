import Verif.Model.Net
/-! # Injectivity of `Display` of socket addresses -/
namespace Radius

/-! ### Numbers -/

theorem digitChar_inj16 {a b : Nat} (ha : a < 16) (hb : b < 16) (h : Nat.digitChar a = Nat.digitChar b) : a = b := by
  have key : ∀ a b : Fin 16, Nat.digitChar a.val = Nat.digitChar b.val → a = b := by decide
  exact congrArg Fin.val (key ⟨a, ha⟩ ⟨b, hb⟩ h)

theorem toDigits_inj {b : Nat} (hb : 1 < b) (hb' : b ≤ 16) : ∀ (n m : Nat), Nat.toDigits b n = Nat.toDigits b m → n = m := by
  intro n
  induction n using Nat.strongRecOn with
  | _ n ih =>
    intro m h
    rw [Nat.toDigits_eq_if hb, Nat.toDigits_eq_if (n := m) hb] at h
    have hne : ∀ k, Nat.toDigits b k ≠ [] := fun k => Nat.toDigits_ne_nil
    by_cases hn : n < b <;> by_cases hm : m < b
    · rw [if_pos hn, if_pos hm] at h
      exact digitChar_inj16 (by omega) (by omega) (List.cons.inj h).1
    · rw [if_pos hn, if_neg hm] at h
      have := List.append_inj_left' (s₁ := []) h rfl
      exact absurd this.symm (hne _)
    · rw [if_neg hn, if_pos hm] at h
      have := List.append_inj_left' (s₂ := []) h rfl
      exact absurd this (hne _)
    · rw [if_neg hn, if_neg hm] at h
      have h1 := List.append_inj_left' h rfl
      have h2 := List.append_inj_right' h rfl
      have hd := ih (n / b) (Nat.div_lt_self (by omega) hb) (m / b) h1
      have hr := digitChar_inj16 (Nat.lt_of_lt_of_le (Nat.mod_lt n (by omega)) hb')
        (Nat.lt_of_lt_of_le (Nat.mod_lt m (by omega)) hb') (List.cons.inj h2).1
      rw [← Nat.div_add_mod n b, ← Nat.div_add_mod m b, hd, hr]

/-- The characters of numbers. -/
def isNumChar (c : Char) : Bool := "0123456789abcdef".toList.contains c

theorem digitChar_isNum {a : Nat} (h : a < 16) : isNumChar (Nat.digitChar a) = true := by
  have key : ∀ a : Fin 16, isNumChar (Nat.digitChar a.val) = true := by decide
  exact key ⟨a, h⟩

theorem toDigits_isNum {b : Nat} (hb : 1 < b) (hb' : b ≤ 16) : ∀ (n : Nat), ∀ c ∈ Nat.toDigits b n, isNumChar c = true := by
  intro n
  induction n using Nat.strongRecOn with
  | _ n ih =>
    intro c hc
    rw [Nat.toDigits_eq_if hb] at hc
    split at hc
    · rw [List.mem_singleton.1 hc]; exact digitChar_isNum (by omega)
    · rcases List.mem_append.1 hc with hc | hc
      · exact ih _ (Nat.div_lt_self (by omega) hb) c hc
      · rw [List.mem_singleton.1 hc]
        exact digitChar_isNum (Nat.lt_of_lt_of_le (Nat.mod_lt n (by omega)) hb')

theorem fmtDec_inj {n m : Nat} (h : fmtDec n = fmtDec m) : n = m := toDigits_inj (by omega) (by omega) n m h
theorem fmtHex_inj {n m : Nat} (h : fmtHex n = fmtHex m) : n = m := toDigits_inj (by omega) (by omega) n m h
theorem fmtDec_num (n : Nat) : ∀ c ∈ fmtDec n, isNumChar c = true := toDigits_isNum (by omega) (by omega) n
theorem fmtHex_num (n : Nat) : ∀ c ∈ fmtHex n, isNumChar c = true := toDigits_isNum (by omega) (by omega) n
theorem fmtHex_ne_nil (n : Nat) : fmtHex n ≠ [] := Nat.toDigits_ne_nil
theorem fmtDec_ne_nil (n : Nat) : fmtDec n ≠ [] := Nat.toDigits_ne_nil

/-- Two texts split at separators that do not occur before them. -/
theorem split_at {x y r s : List Char} {c d : Char} (hx : d ∉ x) (hy : c ∉ y) (h : x ++ c :: r = y ++ d :: s) :
    x = y ∧ c = d ∧ r = s := by
  induction x generalizing y with
  | nil =>
    cases y with
    | nil => simpa using h
    | cons b y => simp at h; exact absurd (by simp [h.1]) hy
  | cons a x ih =>
    cases y with
    | nil => simp at h; exact absurd (by simp [h.1]) hx
    | cons b y =>
      simp only [List.cons_append, List.cons.injEq] at h
      obtain ⟨rfl, h⟩ := h
      obtain ⟨rfl, h1, h2⟩ := ih (by simp at hx; exact hx.2) (by simp at hy; exact hy.2) h
      exact ⟨rfl, h1, h2⟩

theorem not_mem_of_num {l : List Char} {c : Char} (h : ∀ c ∈ l, isNumChar c = true) (hc : isNumChar c = false) : c ∉ l := by
  intro hm
  rw [h c hm] at hc
  cases hc

/-! ### IPv4 -/

theorem uint8_ext {a b : UInt8} (h : a.toNat = b.toNat) : a = b := UInt8.toNat_inj.1 h

theorem Ipv4Addr.display_inj {x y : Ipv4Addr} (h : x.display = y.display) : x = y := by
  obtain ⟨a, b, c, d⟩ := x
  obtain ⟨a', b', c', d'⟩ := y
  have dot : ∀ n, '.' ∉ fmtDec n := fun n => not_mem_of_num (fmtDec_num n) rfl
  simp only [Ipv4Addr.display, List.append_assoc, List.cons_append] at h
  obtain ⟨h1, _, h⟩ := split_at (dot _) (dot _) h
  obtain ⟨h2, _, h⟩ := split_at (dot _) (dot _) h
  obtain ⟨h3, _, h⟩ := split_at (dot _) (dot _) h
  rw [uint8_ext (fmtDec_inj h1), uint8_ext (fmtDec_inj h2), uint8_ext (fmtDec_inj h3), uint8_ext (fmtDec_inj h)]

theorem Ipv4Addr.display_chars (x : Ipv4Addr) : ∀ c ∈ x.display, isNumChar c = true ∨ c = '.' := by
  intro c hc
  simp only [Ipv4Addr.display, List.append_assoc, List.cons_append, List.mem_append, List.mem_cons] at hc
  rcases hc with h | h | h | h | h | h | h <;> first | exact .inr h | exact .inl (fmtDec_num _ c h)

/-! ### IPv6 -/

/-- Pieces of a text between colons. -/
def pieces : List Char → List (List Char)
  | [] => [[]]
  | c :: cs => if c = ':' then [] :: pieces cs else
    match pieces cs with
    | [] => [[c]]
    | p :: ps => (c :: p) :: ps

theorem pieces_colon (a b : List Char) (ha : ':' ∉ a) : pieces (a ++ ':' :: b) = a :: pieces b := by
  induction a with
  | nil => simp [pieces]
  | cons c a ih =>
    have hc : c ≠ ':' := fun e => ha (by simp [e])
    simp [pieces, hc, ih (fun h => ha (by simp [h]))]

theorem pieces_plain (a : List Char) (ha : ':' ∉ a) : pieces a = [a] := by
  induction a with
  | nil => rfl
  | cons c a ih =>
    have hc : c ≠ ':' := fun e => ha (by simp [e])
    simp [pieces, hc, ih (fun h => ha (by simp [h]))]

theorem fmtHex_colon (n : Nat) : ':' ∉ fmtHex n := not_mem_of_num (fmtHex_num n) rfl

/-- The pieces of formatted segments. -/
def segPieces : List Nat → List (List Char)
  | [] => [[]]
  | l => l.map fmtHex

theorem pieces_fmt (l : List Nat) : pieces (fmtSegments l) = segPieces l := by
  induction l with
  | nil => rfl
  | cons s l ih =>
    cases l with
    | nil => exact pieces_plain _ (fmtHex_colon s)
    | cons t l =>
      rw [fmtSegments, pieces_colon _ _ (fmtHex_colon s), ih]; rfl
      simp

theorem pieces_fmt_colon (l : List Nat) (rest : List Char) :
    pieces (fmtSegments l ++ ':' :: rest) = segPieces l ++ pieces rest := by
  induction l with
  | nil => simp [fmtSegments, pieces, segPieces]
  | cons s l ih =>
    cases l with
    | nil => exact pieces_colon _ _ (fmtHex_colon s)
    | cons t l =>
      rw [fmtSegments, List.append_assoc, List.cons_append, pieces_colon _ _ (fmtHex_colon s), ih]; rfl
      simp

/-- Pieces before the first empty one. -/
def front (ps : List (List Char)) : List (List Char) := ps.takeWhile (fun p => !p.isEmpty)

theorem fmtHex_nonempty (n : Nat) : (!(fmtHex n).isEmpty) = true := by
  have := fmtHex_ne_nil n
  cases h : fmtHex n with
  | nil => exact absurd h this
  | cons => rfl

theorem takeWhile_segs (l : List Nat) (rest : List (List Char)) :
    front (l.map fmtHex ++ [] :: rest) = l.map fmtHex := by
  unfold front
  rw [List.takeWhile_append_of_pos (by
    intro p hp
    obtain ⟨n, _, rfl⟩ := List.mem_map.1 hp
    exact fmtHex_nonempty n)]
  simp

theorem front_segs (l : List Nat) (rest : List (List Char)) : front (segPieces l ++ [] :: rest) = l.map fmtHex := by
  cases l with
  | nil => simp [segPieces, front]
  | cons a l => exact takeWhile_segs (a :: l) rest

theorem front_all (l : List Nat) : front (l.map fmtHex) = l.map fmtHex := by
  induction l with
  | nil => rfl
  | cons a l ih =>
    unfold front at ih ⊢
    rw [List.map_cons, List.takeWhile_cons, if_pos (fmtHex_nonempty a), ih]

theorem segPieces_reverse (l : List Nat) : (segPieces l).reverse = segPieces l.reverse := by
  cases l with
  | nil => rfl
  | cons a l =>
    have : ∀ m : List Nat, m ≠ [] → segPieces m = m.map fmtHex := by
      intro m hm; cases m with
      | nil => exact absurd rfl hm
      | cons => rfl
    rw [this _ (by simp), this _ (by simp), List.map_reverse]

/-- Reading the segments (as texts) back from the text of an address. -/
def readSegs (text : List Char) : List (List Char) :=
  let ps := pieces text
  let a := front ps
  if a.length = 8 then a
  else
    let b := (front ps.reverse).reverse
    a ++ List.replicate (8 - a.length - b.length) (fmtHex 0) ++ b

theorem readSegs_plain (l : List Nat) (h : l.length = 8) : readSegs (fmtSegments l) = l.map fmtHex := by
  have hp : pieces (fmtSegments l) = l.map fmtHex := by
    rw [pieces_fmt]
    cases l with
    | nil => cases h
    | cons => rfl
  unfold readSegs
  simp only [hp, front_all]
  rw [if_pos (by simpa using h)]

theorem readSegs_compressed (a b : List Nat) (h : a.length + b.length < 8) :
    readSegs (fmtSegments a ++ ':' :: ':' :: fmtSegments b)
      = (a ++ List.replicate (8 - a.length - b.length) 0 ++ b).map fmtHex := by
  have hp : pieces (fmtSegments a ++ ':' :: ':' :: fmtSegments b) = segPieces a ++ [] :: segPieces b := by
    rw [pieces_fmt_colon]
    have := pieces_colon [] (fmtSegments b) (by simp)
    simp only [List.nil_append] at this
    rw [this, pieces_fmt]
  have hr : (segPieces a ++ [] :: segPieces b).reverse = segPieces b.reverse ++ [] :: segPieces a.reverse := by
    simp [segPieces_reverse]
  unfold readSegs
  simp only [hp, hr, front_segs]
  rw [if_neg (by simp; omega)]
  simp

/-- `(start, len)` describes a run of zeros inside `l`. -/
def ZeroRun (l : List Nat) (z : Nat × Nat) : Prop :=
  z.2 = 0 ∨ (z.1 + z.2 ≤ l.length ∧ ∀ j, z.1 ≤ j → j < z.1 + z.2 → l[j]? = some 0)

theorem ZeroRun.append {l : List Nat} {z : Nat × Nat} (h : ZeroRun l z) (r : List Nat) : ZeroRun (l ++ r) z := by
  rcases h with h | ⟨h1, h2⟩
  · exact .inl h
  · refine .inr ⟨by simp; omega, fun j hj hj' => ?_⟩
    rw [List.getElem?_append_left (by omega)]
    exact h2 j hj hj'

theorem longestZeros_run : ∀ (segs pre : List Nat) (i : Nat) (cur longest : Nat × Nat), i = pre.length →
    ZeroRun pre cur → (cur.2 ≠ 0 → cur.1 + cur.2 = i) → ZeroRun pre longest →
    ZeroRun (pre ++ segs) (longestZeros segs i cur longest)
  | [], pre, i, cur, longest, _, _, _, hl => by simpa [longestZeros] using hl
  | seg :: segs, pre, i, cur, longest, hi, hc, he, hl => by
    have happ : pre ++ seg :: segs = (pre ++ [seg]) ++ segs := by simp
    rw [longestZeros, happ]
    by_cases h0 : seg = 0
    · subst h0
      simp only [if_true]
      have hcur : ZeroRun (pre ++ [0]) ((if cur.2 = 0 then (i, cur.2) else cur).1, (if cur.2 = 0 then (i, cur.2) else cur).2 + 1) ∧
          (if cur.2 = 0 then (i, cur.2) else cur).1 + ((if cur.2 = 0 then (i, cur.2) else cur).2 + 1) = i + 1 := by
        by_cases hz : cur.2 = 0
        · simp only [hz, if_true]
          refine ⟨.inr ⟨by simp; omega, fun j hj hj' => ?_⟩, trivial⟩
          simp only at hj hj'
          have : j = pre.length := by omega
          subst this; simp
        · simp only [hz, if_false]
          have he' := he hz
          refine ⟨.inr ⟨by simp; omega, fun j hj hj' => ?_⟩, by omega⟩
          simp only at hj hj'
          by_cases hlt : j < pre.length
          · rw [List.getElem?_append_left hlt]
            rcases hc with hc | ⟨_, hc⟩
            · exact absurd hc hz
            · exact hc j hj (by omega)
          · have : j = pre.length := by omega
            subst this; simp
      generalize (if cur.2 = 0 then (i, cur.2) else cur) = cur' at hcur ⊢
      apply longestZeros_run segs (pre ++ [0]) (i + 1) _ _ (by simp [hi]) hcur.1 (fun _ => hcur.2)
      split
      · exact hcur.1
      · exact hl.append _
    · simp only [h0, if_false]
      exact longestZeros_run segs (pre ++ [seg]) (i + 1) (0, 0) longest (by simp [hi]) (.inl rfl)
        (fun h => absurd rfl h) (hl.append _)

theorem zeroRun_split {l : List Nat} {s n : Nat} (h : ZeroRun l (s, n)) (hn : n ≠ 0) :
    l = l.take s ++ List.replicate n 0 ++ l.drop (s + n) ∧ s + n ≤ l.length := by
  rcases h with h | ⟨h1, h2⟩
  · exact absurd h hn
  · simp only at h1 h2
    refine ⟨List.ext_getElem? fun j => ?_, h1⟩
    have hl : (l.take s).length = s := by rw [List.length_take]; omega
    rw [List.append_assoc]
    by_cases hj : j < s
    · rw [List.getElem?_append_left (by omega), List.getElem?_take_of_lt hj]
    · rw [List.getElem?_append_right (by omega), hl]
      by_cases hj' : j < s + n
      · rw [List.getElem?_append_left (by simp; omega), h2 j (by omega) hj']
        rw [List.getElem?_replicate, if_pos (by omega)]
      · rw [List.getElem?_append_right (by simp; omega), List.getElem?_drop]
        congr 1; simp; omega

/-- The general form of the text of an IPv6 address. -/
def segText (segments : List Nat) : List Char :=
  let zeroes := longestZeros segments 0 (0, 0) (0, 0)
  if zeroes.2 > 1 then
    fmtSegments (segments.take zeroes.1) ++ "::".toList ++ fmtSegments (segments.drop (zeroes.1 + zeroes.2))
  else fmtSegments segments

theorem readSegs_segText (l : List Nat) (h : l.length = 8) : readSegs (segText l) = l.map fmtHex := by
  unfold segText
  have hz := longestZeros_run l [] 0 (0, 0) (0, 0) rfl (.inl rfl) (fun h => absurd rfl h) (.inl rfl)
  simp only [List.nil_append] at hz
  generalize longestZeros l 0 (0, 0) (0, 0) = z at hz
  obtain ⟨s, n⟩ := z
  simp only
  split
  · rename_i hn
    obtain ⟨h1, h2⟩ := zeroRun_split hz (by omega)
    have ht : (l.take s).length = s := by rw [List.length_take]; omega
    have hd : (l.drop (s + n)).length = 8 - (s + n) := by rw [List.length_drop, h]
    have := readSegs_compressed (l.take s) (l.drop (s + n)) (by omega)
    rw [List.append_assoc]
    rw [show "::".toList ++ fmtSegments (l.drop (s + n)) = ':' :: ':' :: fmtSegments (l.drop (s + n)) from rfl, this,
      ht, hd, show 8 - s - (8 - (s + n)) = n by omega, ← h1]
  · exact readSegs_plain l h

theorem map_fmtHex_inj : ∀ {l m : List Nat}, l.map fmtHex = m.map fmtHex → l = m
  | [], [], _ => rfl
  | a :: l, b :: m, h => by
    simp only [List.map_cons, List.cons.injEq] at h
    rw [fmtHex_inj h.1, map_fmtHex_inj h.2]

theorem segText_inj {l m : List Nat} (hl : l.length = 8) (hm : m.length = 8) (h : segText l = segText m) : l = m := by
  apply map_fmtHex_inj
  rw [← readSegs_segText l hl, ← readSegs_segText m hm, h]

theorem fmtSegments_chars : ∀ (l : List Nat), ∀ c ∈ fmtSegments l, isNumChar c = true ∨ c = ':'
  | [], c, hc => by cases hc
  | [s], c, hc => .inl (fmtHex_num s c hc)
  | s :: t :: l, c, hc => by
    rw [fmtSegments] at hc
    · rcases List.mem_append.1 hc with h | h
      · exact .inl (fmtHex_num s c h)
      · rcases List.mem_cons.1 h with h | h
        · exact .inr h
        · exact fmtSegments_chars (t :: l) c h
    · simp

theorem segText_chars (l : List Nat) : ∀ c ∈ segText l, isNumChar c = true ∨ c = ':' := by
  intro c hc
  unfold segText at hc
  simp only at hc
  split at hc
  · simp only [List.mem_append] at hc
    rcases hc with (h | h) | h
    · exact fmtSegments_chars _ c h
    · right; revert h; simp
    · exact fmtSegments_chars _ c h
  · exact fmtSegments_chars _ c hc

/-- Segments determine the octets. -/
theorem segmentsOf_inj : ∀ {x y : Bytes}, x.length = y.length → x.length % 2 = 0 → segmentsOf x = segmentsOf y → x = y
  | [], [], _, _, _ => rfl
  | [_], _, _, h, _ => by simp at h
  | a :: b :: x, [_], h, h', _ => by simp at h
  | a :: b :: x, a' :: b' :: y, h, h', e => by
    simp only [segmentsOf, List.cons.injEq] at e
    have hb := b.toNat_lt
    have hb' := b'.toNat_lt
    rw [segmentsOf_inj (by simpa using h) (by simp at h'; omega) e.2, uint8_ext (a := a) (b := a') (by omega),
      uint8_ext (a := b) (b := b') (by omega)]

theorem segmentsOf_length : ∀ (x : Bytes), x.length % 2 = 0 → (segmentsOf x).length = x.length / 2
  | [], _ => rfl
  | [_], h => by simp at h
  | a :: b :: x, h => by
    simp only [segmentsOf, List.length_cons]
    rw [segmentsOf_length x (by simp at h; omega)]; omega

/-- The two forms of the text of an IPv6 address. -/
theorem Ipv6Addr.display_cases (x : Ipv6Addr) :
    (∃ a b c d, x.octets = [0, 0, 0, 0, 0, 0, 0, 0, 0, 0, 0xff, 0xff, a, b, c, d] ∧
      x.display = "::ffff:".toList ++ Ipv4Addr.display ⟨a, b, c, d⟩) ∨ x.display = segText x.segments := by
  unfold Ipv6Addr.display
  split
  · rename_i a b c d h
    exact .inl ⟨a, b, c, d, h, rfl⟩
  · exact .inr rfl

theorem Ipv4Addr.display_dot (x : Ipv4Addr) : '.' ∈ x.display := by
  simp [Ipv4Addr.display]

theorem Ipv6Addr.display_inj {x y : Ipv6Addr} (h : x.display = y.display) : x = y := by
  have hext : ∀ {x y : Ipv6Addr}, x.octets = y.octets → x = y := by
    intro x y e; cases x; cases y; cases e; rfl
  have nodot : ∀ l, '.' ∉ segText l := by
    intro l hm
    rcases segText_chars l '.' hm with h | h
    · exact absurd h (by decide)
    · exact absurd h (by decide)
  apply hext
  rcases x.display_cases with ⟨a, b, c, d, h1, h2⟩ | h1 <;> rcases y.display_cases with ⟨a', b', c', d', h3, h4⟩ | h3
  · rw [h2, h4] at h
    have := Ipv4Addr.display_inj (List.append_cancel_left h)
    cases this
    rw [h1, h3]
  · rw [h2, h3] at h
    exact absurd (h ▸ List.mem_append_right _ (Ipv4Addr.display_dot _)) (nodot _)
  · rw [h1, h4] at h
    exact absurd (h ▸ List.mem_append_right _ (Ipv4Addr.display_dot _)) (nodot _)
  · rw [h1, h3] at h
    have hx := x.len
    have hy := y.len
    refine segmentsOf_inj (by omega) (by omega) (segText_inj ?_ ?_ h)
    · rw [segmentsOf_length _ (by omega)]; omega
    · rw [segmentsOf_length _ (by omega)]; omega

theorem Ipv6Addr.display_chars (x : Ipv6Addr) : ∀ c ∈ x.display, isNumChar c = true ∨ c = ':' ∨ c = '.' := by
  intro c hc
  rcases x.display_cases with ⟨a, b, c', d, _, h⟩ | h <;> rw [h] at hc
  · rcases List.mem_append.1 hc with hc | hc
    · have key : ∀ c ∈ "::ffff:".toList, isNumChar c = true ∨ c = ':' ∨ c = '.' := by decide
      exact key c hc
    · rcases Ipv4Addr.display_chars _ c hc with h | h
      · exact .inl h
      · exact .inr (.inr h)
  · rcases segText_chars _ c hc with h | h
    · exact .inl h
    · exact .inr (.inl h)

end Radius

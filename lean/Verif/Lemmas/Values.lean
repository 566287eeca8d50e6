import Verif.Lemmas.Basic
import Verif.Model.Avp
import Verif.Spec.Values
/-! # Lemmas about attribute values -/
namespace Radius
open Spec

theorem u8_eq_of_toNat {a b : UInt8} (h : a.toNat = b.toNat) : a = b := UInt8.toNat.inj h

theorem u32FromBe_toBe (n : UInt32) :
    ∃ a b c d, u32ToBe n = [a, b, c, d] ∧ u32FromBe a b c d = n := by
  refine ⟨_, _, _, _, rfl, ?_⟩
  apply UInt32.toNat.inj
  have := n.toNat_lt
  rw [u32_join]
  simp only [UInt8.toNat_ofNat']
  omega

theorem u32ToBe_fromBe (a b c d : UInt8) : u32ToBe (u32FromBe a b c d) = [a, b, c, d] := by
  have := a.toNat_lt; have := b.toNat_lt; have := c.toNat_lt; have := d.toNat_lt
  unfold u32ToBe
  rw [u32_join]
  congr 1
  · apply u8_eq_of_toNat; rw [UInt8.toNat_ofNat']; omega
  congr 1
  · apply u8_eq_of_toNat; rw [UInt8.toNat_ofNat']; omega
  congr 1
  · apply u8_eq_of_toNat; rw [UInt8.toNat_ofNat']; omega
  congr 1
  · apply u8_eq_of_toNat; rw [UInt8.toNat_ofNat']; omega

theorem u16FromBe_toBe (n : UInt16) : ∃ a b, u16ToBe n = [a, b] ∧ u16FromBe a b = n := by
  obtain ⟨a, b, h, h'⟩ := u16ToBe_eq n
  exact ⟨a, b, h, UInt16.toNat.inj (by rw [u16_join, h'])⟩

theorem u16ToBe_fromBe (a b : UInt8) : u16ToBe (u16FromBe a b) = [a, b] := by
  have := a.toNat_lt; have := b.toNat_lt
  unfold u16ToBe
  rw [u16_join]
  congr 1
  · apply u8_eq_of_toNat; rw [UInt8.toNat_ofNat']; omega
  congr 1
  · apply u8_eq_of_toNat; rw [UInt8.toNat_ofNat']; omega

theorem utf8_eq_core (c : Char) : utf8 c = String.utf8EncodeChar c := by
  have hv : c.toNat < 0x110000 := by
    have := c.valid
    rcases this with h | ⟨_, h⟩
    · have : c.toNat < 0xd800 := h
      omega
    · exact h
  unfold utf8 String.utf8EncodeChar
  have e : c.val.toNat = c.toNat := rfl
  simp only [e]
  by_cases h1 : c.toNat < 0x80
  · rw [if_pos h1, if_pos (by omega)]
  rw [if_neg h1, if_neg (show ¬ c.toNat ≤ 0x7f by omega)]
  by_cases h2 : c.toNat < 0x800
  · rw [if_pos h2, if_pos (by omega), show c.toNat / 64 % 32 + 192 = 0xc0 + c.toNat / 64 by omega,
      Nat.add_comm 0x80]
  rw [if_neg h2, if_neg (show ¬ c.toNat ≤ 0x7ff by omega)]
  by_cases h3 : c.toNat < 0x10000
  · rw [if_pos h3, if_pos (by omega), show c.toNat / 4096 % 16 + 224 = 0xe0 + c.toNat / 4096 by omega,
      Nat.add_comm 0x80, Nat.add_comm 0x80]
  rw [if_neg h3, if_neg (show ¬ c.toNat ≤ 0xffff by omega),
    show c.toNat / 262144 % 8 + 240 = 0xf0 + c.toNat / 262144 by omega,
    Nat.add_comm 0x80, Nat.add_comm 0x80, Nat.add_comm 0x80]

theorem strBytes_eq (s : String) : strBytes s = textBytes s := by
  have h1 : s.toUTF8 = s.toList.utf8Encode := String.utf8Encode_toList.symm
  have h2 : utf8 = String.utf8EncodeChar := funext utf8_eq_core
  unfold strBytes textBytes
  rw [h1, List.utf8Encode, List.toList_data_toByteArray, h2]

theorem toByteArray_toList (a : ByteArray) : a.data.toList.toByteArray = a := by
  apply ByteArray.ext
  rw [List.data_toByteArray]

theorem validUtf8_iff (bs : Bytes) : bs.toByteArray.IsValidUTF8 ↔ ValidUtf8 bs := by
  have h2 : utf8 = String.utf8EncodeChar := funext utf8_eq_core
  unfold ValidUtf8
  rw [h2]
  constructor
  · rintro ⟨cs, h⟩
    refine ⟨cs, ?_⟩
    rw [List.utf8Encode, List.toByteArray_inj] at h
    exact h
  · rintro ⟨cs, h⟩
    exact ⟨cs, by rw [List.utf8Encode, h]⟩

theorem strBytes_fromUTF8 (bs : Bytes) (h : bs.toByteArray.IsValidUTF8) :
    strBytes (String.fromUTF8 bs.toByteArray h) = bs := by
  show (bs.toByteArray).data.toList = bs
  exact List.toList_data_toByteArray

theorem strBytes_inj {s t : String} (h : strBytes s = strBytes t) : s = t := by
  apply String.toByteArray_inj.1
  rw [← toByteArray_toList s.toByteArray, ← toByteArray_toList t.toByteArray]
  exact congrArg _ h

/-- `String::from_utf8` returns `s` exactly on the bytes of `s`. -/
theorem stringFromUtf8_ok_iff (bs : Bytes) (s : String) :
    stringFromUtf8 bs = .ok s ↔ bs = strBytes s := by
  unfold stringFromUtf8 String.fromUTF8?
  by_cases h : bs.toByteArray.IsValidUTF8
  · rw [dif_pos h]
    simp only [Out.ok.injEq]
    constructor
    · rintro rfl; exact (strBytes_fromUTF8 bs h).symm
    · intro hb
      apply strBytes_inj
      rw [strBytes_fromUTF8, hb]
  · rw [dif_neg h]
    simp only [reduceCtorEq, false_iff]
    rintro rfl
    apply h
    have : (strBytes s).toByteArray = s.toByteArray := toByteArray_toList _
    rw [this]
    exact s.isValidUTF8

theorem stringFromUtf8_err (bs : Bytes) (h : ¬ ValidUtf8 bs) :
    stringFromUtf8 bs = .err (.DecodingError "invalid utf-8") := by
  unfold stringFromUtf8 String.fromUTF8?
  rw [dif_neg (fun h' => h ((validUtf8_iff bs).1 h'))]

theorem stringFromUtf8_ok_of_valid (bs : Bytes) (h : ValidUtf8 bs) : ∃ s, stringFromUtf8 bs = .ok s := by
  unfold stringFromUtf8 String.fromUTF8?
  rw [dif_pos ((validUtf8_iff bs).2 h)]
  exact ⟨_, rfl⟩

/-! ### Blocks and chaining -/

theorem xorBytes_length (a b : Bytes) : (xorBytes a b).length = min a.length b.length := by
  simp [xorBytes]

theorem xorBytes_cancel (a b : Bytes) (h : b.length ≤ a.length) : xorBytes a (xorBytes a b) = b := by
  induction a generalizing b with
  | nil => cases b with
    | nil => rfl
    | cons => simp at h
  | cons x xs ih =>
    cases b with
    | nil => rfl
    | cons y ys =>
      simp only [List.length_cons] at h
      have := ih ys (by omega)
      simp only [xorBytes, List.zipWith_cons_cons] at *
      rw [this, ← UInt8.xor_assoc, UInt8.xor_self, UInt8.zero_xor]

theorem xorBytes_getD (a b : Bytes) (j : Nat) (ha : j < a.length) (hb : j < b.length) :
    (xorBytes a b).getD j 0 = b.getD j 0 ^^^ a.getD j 0 := by
  simp only [xorBytes, List.getD_eq_getElem?_getD, List.getElem?_zipWith]
  rw [List.getElem?_eq_getElem ha, List.getElem?_eq_getElem hb]
  simp [UInt8.xor_comm]

theorem chunks_nil {α : Type} (m : Nat) : chunks m ([] : List α) = [] := by
  unfold chunks; rfl

theorem chunks_cons {α : Type} (m : Nat) (x : α) (xs : List α) :
    chunks m (x :: xs) = (x :: xs.take m) :: chunks m (xs.drop m) := by
  conv => lhs; unfold chunks

theorem chunks_ne_nil {α : Type} (m : Nat) (l : List α) (h : l ≠ []) :
    chunks m l = l.take (m + 1) :: chunks m (l.drop (m + 1)) := by
  cases l with
  | nil => exact absurd rfl h
  | cons x xs => rw [chunks_cons]; rfl

theorem chunks_flatten {α : Type} (m : Nat) (l : List α) : (chunks m l).flatten = l := by
  generalize hn : l.length = n
  induction n using Nat.strongRecOn generalizing l with
  | _ n ih =>
    cases l with
    | nil => simp [chunks_nil]
    | cons x xs =>
      rw [chunks_cons, List.flatten_cons, ih (xs.drop m).length (by simp at hn ⊢; omega) _ rfl]
      simp

theorem chunks_length_le {α : Type} (m : Nat) (l : List α) :
    ∀ c ∈ chunks m l, c.length ≤ m + 1 ∧ c ≠ [] := by
  generalize hn : l.length = n
  induction n using Nat.strongRecOn generalizing l with
  | _ n ih =>
    cases l with
    | nil => simp [chunks_nil]
    | cons x xs =>
      rw [chunks_cons]
      intro c hc
      rcases List.mem_cons.1 hc with rfl | hc
      · simp; omega
      · exact ih (xs.drop m).length (by simp at hn ⊢; omega) _ rfl c hc

/-- Chunking a concatenation of full blocks. -/
theorem chunks_of_flatten (m : Nat) (bl : List Bytes) (h : ∀ b ∈ bl, b.length = m + 1) :
    chunks m bl.flatten = bl := by
  induction bl with
  | nil => simp [chunks_nil]
  | cons b bl ih =>
    have hb := h b (by simp)
    have hne : (b :: bl).flatten ≠ [] := by
      cases b with
      | nil => simp at hb
      | cons => simp
    rw [chunks_ne_nil m _ hne, List.flatten_cons, List.take_left' hb, List.drop_left' hb,
      ih (fun c hc => h c (by simp [hc]))]

theorem padChunk_length (c : Bytes) (h : c.length ≤ 16) : (AVP.padChunk c).length = 16 := by
  unfold AVP.padChunk
  dsimp only
  split
  · simp; omega
  · omega

/-- The cipher blocks produced by the hiding loop. -/
def cipherBlocks (H : Hash) (secret : Bytes) : Bytes → List Bytes → List Bytes
  | _, [] => []
  | buff, chunk :: rest =>
    xorBytes (H (secret ++ buff)).val (AVP.padChunk chunk) ::
      cipherBlocks H secret (xorBytes (H (secret ++ buff)).val (AVP.padChunk chunk)) rest

theorem hideLoop_eq (H : Hash) (secret : Bytes) (cs : List Bytes) (buff enc : Bytes) :
    AVP.hideLoop H secret cs buff enc = enc ++ (cipherBlocks H secret buff cs).flatten := by
  induction cs generalizing buff enc with
  | nil => simp [AVP.hideLoop, cipherBlocks]
  | cons c cs ih => simp only [AVP.hideLoop, cipherBlocks, ih]; simp

theorem cipherBlocks_count (H : Hash) (secret buff : Bytes) (cs : List Bytes) :
    (cipherBlocks H secret buff cs).length = cs.length := by
  induction cs generalizing buff with
  | nil => rfl
  | cons c cs ih => simp [cipherBlocks, ih]

theorem cipherBlocks_lengths (H : Hash) (secret buff : Bytes) (cs : List Bytes)
    (h : ∀ c ∈ cs, c.length ≤ 16) : ∀ b ∈ cipherBlocks H secret buff cs, b.length = 16 := by
  induction cs generalizing buff with
  | nil => simp [cipherBlocks]
  | cons c cs ih =>
    intro b hb
    simp only [cipherBlocks] at hb
    rcases List.mem_cons.1 hb with rfl | hb
    · rw [xorBytes_length, (H _).property, padChunk_length c (h c (by simp))]; rfl
    · exact ih _ (fun c hc => h c (by simp [hc])) b hb

/-- The revealing loop undoes the cipher blocks. -/
theorem revealLoop_cipher (H : Hash) (secret buff dec : Bytes) (cs : List Bytes)
    (h : ∀ c ∈ cs, c.length ≤ 16) :
    AVP.revealLoop H secret (cipherBlocks H secret buff cs) buff dec
      = dec ++ (cs.map AVP.padChunk).flatten := by
  induction cs generalizing buff dec with
  | nil => simp [cipherBlocks, AVP.revealLoop]
  | cons c cs ih =>
    simp only [cipherBlocks, AVP.revealLoop]
    rw [ih _ _ (fun c hc => h c (by simp [hc]))]
    rw [xorBytes_cancel _ _ (by rw [(H _).property, padChunk_length c (h c (by simp))]; exact Nat.le_refl _)]
    simp

/-- Padding the chunks of `p` and joining them is `p` followed by zeros. -/
theorem padded_flatten (p : Bytes) :
    ∃ k, ((chunks 15 p).map AVP.padChunk).flatten = p ++ List.replicate k 0 := by
  generalize hn : p.length = n
  induction n using Nat.strongRecOn generalizing p with
  | _ n ih =>
    cases p with
    | nil => exact ⟨0, by simp [chunks_nil]⟩
    | cons x xs =>
      rw [chunks_ne_nil 15 (x :: xs) (by simp)]
      by_cases hl : (x :: xs).length < 16
      · rw [List.take_of_length_le (by omega), List.drop_of_length_le (by omega), chunks_nil]
        refine ⟨16 - (x :: xs).length, ?_⟩
        simp only [List.map_cons, List.map_nil, List.flatten_cons, List.flatten_nil, List.append_nil,
          AVP.padChunk]
        rw [if_pos hl]
      · obtain ⟨k, hk⟩ := ih ((x :: xs).drop 16).length (by simp at hn hl ⊢; omega) _ rfl
        refine ⟨k, ?_⟩
        have e : AVP.padChunk ((x :: xs).take 16) = (x :: xs).take 16 := by
          unfold AVP.padChunk; rw [if_neg]; simp at hl ⊢; omega
        rw [List.map_cons, List.flatten_cons, hk, e, ← List.append_assoc, List.take_append_drop]

theorem splitOn_head (p : UInt8 → Bool) (l : Bytes) :
    (splitOn p l).head? = some (l.takeWhile (fun b => !p b)) := by
  induction l with
  | nil => rfl
  | cons x xs ih =>
    unfold splitOn
    by_cases h : p x
    · simp [h]
    · simp only [h, Bool.false_eq_true, ↓reduceIte]
      cases hs : splitOn p xs with
      | nil => simp [hs] at ih
      | cons a t =>
        rw [hs] at ih
        simp only [List.head?_cons, Option.some.injEq] at ih
        simp [ih, h]

theorem upToZero_eq (d : Bytes) : AVP.upToZero d = d.takeWhile (fun b => b != 0) := by
  unfold AVP.upToZero
  rw [splitOn_head]
  rfl

theorem takeWhile_zeros (p : Bytes) (k : Nat) :
    (p ++ List.replicate k 0).takeWhile (fun b => b != (0 : UInt8)) = p.takeWhile (fun b => b != 0) := by
  induction p with
  | nil =>
    cases k with
    | zero => rfl
    | succ k => simp [List.replicate_succ]
  | cons x xs ih => simp [List.takeWhile_cons, ih]

theorem getD_append_left' (a b : Bytes) (k : Nat) (h : k < a.length) : (a ++ b).getD k 0 = a.getD k 0 := by
  simp only [List.getD_eq_getElem?_getD, List.getElem?_append_left h]

theorem getD_append_right' (a b : Bytes) (k : Nat) (h : a.length ≤ k) :
    (a ++ b).getD k 0 = b.getD (k - a.length) 0 := by
  simp only [List.getD_eq_getElem?_getD, List.getElem?_append_right h]

theorem revealLoop_spec (H : Hash) (secret c : Bytes) : ∀ (buff dec : Bytes),
    ∃ d, AVP.revealLoop H secret (chunks 15 c) buff dec = dec ++ d ∧ Revealed H secret buff c d := by
  generalize hn : c.length = n
  induction n using Nat.strongRecOn generalizing c with
  | _ n ih =>
    intro buff dec
    cases c with
    | nil => exact ⟨[], by simp [chunks_nil, AVP.revealLoop], by simp [Revealed]⟩
    | cons x xs =>
      rw [chunks_ne_nil 15 (x :: xs) (by simp), AVP.revealLoop]
      generalize hc : x :: xs = c at *
      have hpos : 0 < c.length := by rw [← hc]; simp
      obtain ⟨d, hd, hlen, hk⟩ := ih (c.drop (15 + 1)).length (by simp; omega) _ rfl (c.take (15 + 1))
        (dec ++ xorBytes (H (secret ++ buff)).val (c.take (15 + 1)))
      refine ⟨xorBytes (H (secret ++ buff)).val (c.take 16) ++ d, by rw [hd]; simp, ?_, ?_⟩
      · rw [List.length_append, xorBytes_length, (H _).property, hlen]
        simp; omega
      · intro k hkc
        have hx : (xorBytes (H (secret ++ buff)).val (c.take 16)).length = min 16 c.length := by
          rw [xorBytes_length, (H _).property]; simp
        by_cases h16 : k < 16
        · rw [if_pos h16, getD_append_left' _ _ _ (by omega), xorBytes_getD _ _ k
            (by rw [(H _).property]; exact h16) (by simp; omega), Nat.mod_eq_of_lt h16]
          congr 1
          simp [List.getD_eq_getElem?_getD, h16]
        · rw [if_neg h16, getD_append_right' _ _ _ (by omega), hx]
          have e := hk (k - 16) (by simp; omega)
          rw [show min 16 c.length = 16 by omega, e, show (k - 16) % 16 = k % 16 by omega]
          congr 1
          · simp [List.getD_eq_getElem?_getD, List.getElem?_drop]
            rw [show 16 + (k - 16) = k by omega]
          · congr 3
            by_cases h32 : k - 16 < 16
            · rw [if_pos h32, show k / 16 - 1 = 0 by omega]
              simp [block]
            · rw [if_neg h32]
              unfold block
              rw [List.drop_drop, show 15 + 1 + 16 * ((k - 16) / 16 - 1) = 16 * (k / 16 - 1) by omega]

/-! ### Index-wise description of the cipher blocks -/

theorem flatten_block (bl : List Bytes) (h : ∀ b ∈ bl, b.length = 16) (i : Nat) (hi : i < bl.length) :
    block bl.flatten i = bl[i] := by
  induction bl generalizing i with
  | nil => simp at hi
  | cons b bl ih =>
    have hb := h b (by simp)
    cases i with
    | zero =>
      unfold block
      simp only [Nat.mul_zero, List.drop_zero, List.flatten_cons, List.getElem_cons_zero]
      exact List.take_left' hb
    | succ i =>
      have := ih (fun c hc => h c (by simp [hc])) i (by simpa using hi)
      rw [List.getElem_cons_succ, ← this]
      unfold block
      rw [List.flatten_cons, show 16 * (i + 1) = 16 + 16 * i by omega, ← List.drop_drop,
        List.drop_left' hb]

theorem cipherBlocks_getElem (H : Hash) (secret buff : Bytes) (cs : List Bytes) (i : Nat)
    (hi : i < cs.length) (hi' : i < (cipherBlocks H secret buff cs).length) :
    (cipherBlocks H secret buff cs)[i] =
      xorBytes (H (secret ++ if i = 0 then buff else (cipherBlocks H secret buff cs).getD (i - 1) [])).val
        (AVP.padChunk cs[i]) := by
  induction cs generalizing buff i with
  | nil => simp at hi
  | cons c cs ih =>
    cases i with
    | zero => simp [cipherBlocks]
    | succ i =>
      simp only [cipherBlocks, List.getElem_cons_succ]
      rw [ih _ i (by simpa using hi) (by rw [cipherBlocks_count]; simpa using hi)]
      congr 2
      simp only [Nat.add_one_ne_zero, ↓reduceIte, Nat.add_sub_cancel]
      cases i with
      | zero => simp
      | succ i => simp

theorem chunks_count (m : Nat) (l : Bytes) : (chunks m l).length = (l.length + m) / (m + 1) := by
  generalize hn : l.length = n
  induction n using Nat.strongRecOn generalizing l with
  | _ n ih =>
    cases l with
    | nil =>
      simp only [List.length_nil] at hn
      subst hn
      rw [chunks_nil, Nat.zero_add, Nat.div_eq_of_lt (by omega)]
      rfl
    | cons x xs =>
      rw [chunks_ne_nil m (x :: xs) (by simp), List.length_cons,
        ih ((x :: xs).drop (m + 1)).length (by simp at hn ⊢; omega) _ rfl]
      have hl : ((x :: xs).drop (m + 1)).length = n - (m + 1) := by simp at hn ⊢; omega
      rw [hl]
      by_cases h : m + 1 ≤ n
      · rw [show n + m = (n - (m + 1) + m) + (m + 1) by omega, Nat.add_div_right _ (by omega)]
      · rw [show n - (m + 1) = 0 by omega, Nat.zero_add]
        rw [Nat.div_eq_of_lt (by omega)]
        have : 0 < n := by simp at hn; omega
        rw [show n + m = (n - 1) + (m + 1) by omega, Nat.add_div_right _ (by omega),
          Nat.div_eq_of_lt (by omega)]

theorem chunks_getElem (l : Bytes) (i : Nat) (hi : i < (chunks 15 l).length) :
    (chunks 15 l)[i] = block l i := by
  induction i generalizing l with
  | zero =>
    cases l with
    | nil => simp [chunks_nil] at hi
    | cons x xs =>
      simp only [chunks_ne_nil 15 (x :: xs) (by simp), List.getElem_cons_zero]
      rfl
  | succ i ih =>
    cases l with
    | nil => simp [chunks_nil] at hi
    | cons x xs =>
      simp only [chunks_ne_nil 15 (x :: xs) (by simp), List.getElem_cons_succ]
      rw [ih]
      unfold block
      rw [List.drop_drop]
      congr 2; omega

theorem padChunk_getD (c : Bytes) (j : Nat) : (AVP.padChunk c).getD j 0 = c.getD j 0 := by
  unfold AVP.padChunk
  simp only
  split
  · simp only [List.getD_eq_getElem?_getD, List.getElem?_append]
    split
    · rfl
    · rename_i h1 h2
      rw [List.getElem?_eq_none (l := c) (by omega), List.getElem?_replicate]
      split <;> rfl
  · rfl

/-- The cipher of a non-empty text satisfies the specification. -/
theorem hidden_of_chunks (H : Hash) (secret iv p : Bytes) (hp : p ≠ []) :
    Hidden H secret iv p (cipherBlocks H secret iv (chunks 15 p)).flatten := by
  have hcnt : (chunks 15 p).length = blockCount p.length := by
    rw [chunks_count]; unfold blockCount
    have : 0 < p.length := List.length_pos_iff.2 hp
    omega
  have hlen := fun c hc => (chunks_length_le 15 p c hc).1
  have hbl := cipherBlocks_lengths H secret iv (chunks 15 p) hlen
  have hc2 := cipherBlocks_count H secret iv (chunks 15 p)
  refine ⟨?_, ?_⟩
  · rw [← hcnt, ← hc2]
    generalize cipherBlocks H secret iv (chunks 15 p) = bl at hbl
    clear hc2
    induction bl with
    | nil => rfl
    | cons b bl ih =>
      rw [List.flatten_cons, List.length_append, ih (fun c hc => hbl c (by simp [hc])), hbl b (by simp),
        List.length_cons]
      omega
  · intro i hi j hj
    rw [flatten_block _ hbl i (by omega), cipherBlocks_getElem H secret iv _ i (by omega) (by omega)]
    have hpc : (AVP.padChunk (chunks 15 p)[i]).length = 16 :=
      padChunk_length _ (hlen _ (List.getElem_mem _))
    rw [xorBytes_getD _ _ j (by rw [(H _).property]; exact hj) (by omega), padChunk_getD, chunks_getElem]
    congr 3
    by_cases h0 : i = 0
    · simp [h0]
    · simp only [h0, ↓reduceIte]
      rw [flatten_block _ hbl (i - 1) (by omega), List.getD_eq_getElem?_getD,
        List.getElem?_eq_getElem (by omega)]
      rfl

theorem hidden_empty (H : Hash) (secret iv : Bytes) :
    Hidden H secret iv [] (xorBytes (H (secret ++ iv)).val (List.replicate 16 0)) := by
  have hl : (xorBytes (H (secret ++ iv)).val (List.replicate 16 0)).length = 16 := by
    rw [xorBytes_length, (H _).property]; rfl
  refine ⟨by rw [hl]; rfl, ?_⟩
  intro i hi j hj
  have : i = 0 := by simp [blockCount] at hi; omega
  subst this
  unfold block
  simp only [Nat.mul_zero, List.drop_zero, ↓reduceIte]
  rw [List.take_of_length_le (by omega), xorBytes_getD _ _ j (by rw [(H _).property]; exact hj) (by simpa)]
  congr 1
  have : ∀ j : Fin 16, (List.replicate 16 (0 : UInt8)).getD j.val 0 = ([] : Bytes).getD j.val 0 := by
    decide
  exact this ⟨j, hj⟩

/-- Two ciphers of the same text under the same key are equal: the specification determines the bytes. -/
theorem Spec.Hidden.unique {H : Hash} {secret iv p c c' : Bytes} (h : Hidden H secret iv p c)
    (h' : Hidden H secret iv p c') : c = c' := by
  have hb : ∀ i, i < blockCount p.length → block c i = block c' i := by
    intro i
    induction i with
    | zero =>
      intro hi
      have hl : (block c 0).length = 16 := by simp [block, h.1]; omega
      have hl' : (block c' 0).length = 16 := by simp [block, h'.1]; omega
      apply List.ext_getElem (by omega)
      intro j hj hj'
      have e1 := h.2 0 hi j (by omega)
      have e2 := h'.2 0 hi j (by omega)
      simp only [↓reduceIte] at e1 e2
      rw [← e2, List.getD_eq_getElem?_getD, List.getD_eq_getElem?_getD,
        List.getElem?_eq_getElem hj, List.getElem?_eq_getElem hj'] at e1
      exact e1
    | succ i ih =>
      intro hi
      have hl : (block c (i + 1)).length = 16 := by simp [block, h.1]; omega
      have hl' : (block c' (i + 1)).length = 16 := by simp [block, h'.1]; omega
      apply List.ext_getElem (by omega)
      intro j hj hj'
      have e1 := h.2 (i + 1) hi j (by omega)
      have e2 := h'.2 (i + 1) hi j (by omega)
      simp only [Nat.add_one_ne_zero, ↓reduceIte, Nat.add_sub_cancel] at e1 e2
      rw [ih (by omega), ← e2, List.getD_eq_getElem?_getD, List.getD_eq_getElem?_getD,
        List.getElem?_eq_getElem hj, List.getElem?_eq_getElem hj'] at e1
      exact e1
  apply List.ext_getElem (by rw [h.1, h'.1])
  intro k hk hk'
  have hd := hb (k / 16) (by have := h.1; omega)
  unfold block at hd
  have e : ∀ x : Bytes, ∀ hx : k < x.length,
      ((x.drop (16 * (k / 16))).take 16)[k % 16]? = some x[k] := by
    intro x hx
    rw [List.getElem?_take, if_pos (by omega), List.getElem?_drop,
      show 16 * (k / 16) + k % 16 = k by omega, List.getElem?_eq_getElem hx]
  have e1 := e c hk
  rw [hd, e c' hk'] at e1
  exact (Option.some.inj e1).symm

end Radius

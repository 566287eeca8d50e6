import Verif.Basic
/-! # Lemmas about the primitives -/
namespace Radius

theorem idx_of_lt {ε : Type} (bs : Bytes) (i : Nat) (h : i < bs.length) :
    (idx bs i : Out ε UInt8) = .ok bs[i] := by
  simp [idx, h]

theorem slice_of_le {ε : Type} (bs : Bytes) (a b : Nat) (h : a ≤ b) (h' : b ≤ bs.length) :
    (slice bs a b : Out ε Bytes) = .ok ((bs.drop a).take (b - a)) := by
  simp [slice, h, h']

theorem sliceFrom_of_le {ε : Type} (bs : Bytes) (a : Nat) (h : a ≤ bs.length) :
    (sliceFrom bs a : Out ε Bytes) = .ok (bs.drop a) := by
  simp only [sliceFrom, slice_of_le _ _ _ h (Nat.le_refl _)]
  rw [List.take_of_length_le]; simp

theorem u16_join (a b : UInt8) : (u16FromBe a b).toNat = a.toNat * 256 + b.toNat := by
  have := a.toNat_lt; have := b.toNat_lt
  simp only [u16FromBe, UInt16.toNat_ofNat']; omega

theorem u16ToBe_eq (n : UInt16) : ∃ a b : UInt8, u16ToBe n = [a, b] ∧ a.toNat * 256 + b.toNat = n.toNat := by
  refine ⟨_, _, rfl, ?_⟩
  have := n.toNat_lt
  simp only [UInt8.toNat_ofNat']; omega

theorem u32_join (a b c d : UInt8) : (u32FromBe a b c d).toNat =
    a.toNat * 16777216 + b.toNat * 65536 + c.toNat * 256 + d.toNat := by
  have := a.toNat_lt; have := b.toNat_lt; have := c.toNat_lt; have := d.toNat_lt
  simp only [u32FromBe, UInt32.toNat_ofNat']; omega

end Radius

import Verif.Model.Base
/-
Property C42: packing of (lo, hi) offsets.
-/
namespace Verif

theorem encode_toNat (lo hi : UInt32) : (Entry64.encode lo hi).toNat = lo.toNat * 2 ^ 32 + hi.toNat := by
  have h1 := lo.toNat_lt
  have h2 := hi.toNat_lt
  simp only [Entry64.encode, UInt64.toNat_or, UInt64.toNat_shiftLeft, UInt32.toNat_toUInt64]
  rw [show (32 : UInt64).toNat % 64 = 32 by decide, Nat.mod_eq_of_lt (by rw [Nat.shiftLeft_eq]; omega)]
  rw [← Nat.shiftLeft_add_eq_or_of_lt (by omega), Nat.shiftLeft_eq]

theorem decode_toNat (e : Entry64) : (Entry64.decode e).1.toNat = e.toNat / 2 ^ 32 ∧ (Entry64.decode e).2.toNat = e.toNat % 2 ^ 32 := by
  have h := e.toNat_lt
  constructor
  · simp only [Entry64.decode, UInt64.toNat_toUInt32, UInt64.toNat_shiftRight]
    rw [show (32 : UInt64).toNat % 64 = 32 by decide, Nat.shiftRight_eq_div_pow]
    omega
  · simp [Entry64.decode]

/-- C42: unpacking a packed pair returns the pair, for all 2^64 pairs. -/
theorem C42_decode_encode (lo hi : UInt32) : Entry64.decode (Entry64.encode lo hi) = (lo, hi) := by
  have h := decode_toNat (Entry64.encode lo hi)
  rw [encode_toNat] at h
  have h2 := hi.toNat_lt
  apply Prod.ext
  · apply UInt32.toNat_inj.1; rw [h.1]; show _ = lo.toNat; omega
  · apply UInt32.toNat_inj.1; rw [h.2]; show _ = hi.toNat; omega

/-- C42: packing is onto as well: every word is the packing of what it unpacks to. -/
theorem C42_encode_decode (e : Entry64) : Entry64.encode (Entry64.decode e).1 (Entry64.decode e).2 = e := by
  apply UInt64.toNat_inj.1
  rw [encode_toNat, (decode_toNat e).1, (decode_toNat e).2]; omega

/-- C42: the packed word is 0 only for (0,0). The code uses 0 as "absent". -/
theorem C42_zero (lo hi : UInt32) : Entry64.encode lo hi = 0 ↔ lo = 0 ∧ hi = 0 := by
  rw [← UInt64.toNat_inj, encode_toNat, ← UInt32.toNat_inj, ← UInt32.toNat_inj]
  show _ = 0 ↔ _ = 0 ∧ _ = 0
  omega

example : Entry64.encode 4 8 = 0x400000008 := by decide

end Verif

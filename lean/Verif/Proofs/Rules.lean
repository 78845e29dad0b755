import Verif.Spec.Rules
import Verif.Proofs.Logic
import Verif.Props.Entry64
/-
The search helpers of the model compute what `Spec/Rules` describes.
-/
namespace Verif

theorem containsSub_iff (b s : Bytes) : containsSub b s = true ↔ s <:+: b := by
  induction b with
  | nil => simp [containsSub, List.isEmpty_iff]
  | cons x xs ih =>
    rw [containsSub, Bool.or_eq_true, ih, List.isPrefixOf_iff_prefix, List.infix_cons_iff]

theorem decode_fst (e : Entry64) : (Entry64.decode e).1.toNat = e.toNat / 2 ^ 32 := by
  have h := e.toNat_lt
  simp only [Entry64.decode, UInt64.toNat_toUInt32, UInt64.toNat_shiftRight]
  simp [Nat.shiftRight_eq_div_pow]
  omega

theorem decode_snd (e : Entry64) : (Entry64.decode e).2.toNat = e.toNat % 2 ^ 32 := by
  simp [Entry64.decode, UInt64.toNat_toUInt32]

theorem slice_iff {b : Bytes} {lo hi : Nat} {t : Bytes} :
    slice? b lo hi = some t ↔ ∃ a z, b = a ++ t ++ z ∧ lo = a.length ∧ hi = a.length + t.length := by
  unfold slice?
  split
  · rename_i h
    simp only [Option.some.injEq]
    constructor
    · rintro rfl
      refine ⟨b.take lo, b.drop hi, ?_, ?_, ?_⟩
      · have h1 : b.drop hi = (b.drop lo).drop (hi - lo) := by rw [List.drop_drop]; congr 1; omega
        rw [h1, List.append_assoc, List.take_append_drop, List.take_append_drop]
      · simp; omega
      · simp; omega
    · rintro ⟨a, z, rfl, rfl, rfl⟩
      simp [List.append_assoc]
  · rename_i h
    simp only [reduceCtorEq, false_iff, not_exists, not_and]
    rintro a z rfl rfl rfl
    exact h ⟨by omega, by simp⟩

theorem sliceE_iff {b : Bytes} {e : Entry64} {t : Bytes} : sliceE? b e = some t ↔ Text b e t := by
  unfold sliceE? Text
  rw [slice_iff, decode_fst, decode_snd]

theorem u32_toNat {n : Nat} (h : n < 2 ^ 32) : (u32 (n : Int)).toNat = n := by
  unfold u32
  show (UInt32.ofNat (((n : Int) % 2 ^ 32).toNat)).toNat = n
  rw [UInt32.toNat_ofNat']
  omega

end Verif

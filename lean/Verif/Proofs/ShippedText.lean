import Verif.Proofs.Text
import Verif.Proofs.ShippedNames
/-
The texts of the shipped tables are well-formed.
-/
namespace Verif.Data

open Regexp

/-- The text decodes. -/
def textOK (cs : List Chunk) (e : Entry64) : Bool :=
  ((textN cs e).all fun c => Nat.blt c 128) || wfB (textN cs e).length ((textN cs e).map UInt8.ofNat)

theorem toNat_all {t : Bytes} (h : ((t.map UInt8.toNat).all fun c => Nat.blt c 128) = true) : ∀ c ∈ t, c.toNat < 0x80 := by
  intro c hc
  have := List.all_eq_true.mp h c.toNat (List.mem_map.mpr ⟨c, hc, rfl⟩)
  exact blt_lt this

theorem map_back (t : Bytes) : (t.map UInt8.toNat).map UInt8.ofNat = t := by
  rw [List.map_map]
  have : (UInt8.ofNat ∘ UInt8.toNat) = id := by funext c; simp
  rw [this, List.map_id]

theorem textOK_sound {cs : List Chunk} {e : Entry64} (h : textOK cs e = true) {t : Bytes} (ht : Text (buf cs) e t) : WellFormed t := by
  unfold textOK at h
  rw [textN_eq ht, Bool.or_eq_true, map_back] at h
  rcases h with h | h
  · exact .ascii (toNat_all h)
  · exact wfB_sound h

/-- The template decodes, and what follows dollar signs is ASCII. -/
def templateOK (cs : List Chunk) (e : Entry64) : Bool :=
  ((textN cs e).all fun c => Nat.blt c 128) || (wfB (textN cs e).length ((textN cs e).map UInt8.ofNat) && !(textN cs e).contains 36)

theorem templateOK_sound {cs : List Chunk} {e : Entry64} (h : templateOK cs e = true) {t : Bytes} (ht : Text (buf cs) e t) : WellFormed t ∧ Dollars t := by
  unfold templateOK at h
  rw [textN_eq ht, Bool.or_eq_true, map_back, Bool.and_eq_true] at h
  rcases h with h | ⟨h, h'⟩
  · have := toNat_all h
    exact ⟨.ascii this, fun a d z e => this d (by rw [e]; simp)⟩
  · refine ⟨wfB_sound h, fun a d z e => ?_⟩
    simp only [Bool.not_eq_true', List.contains_eq_mem, decide_eq_false_iff_not] at h'
    exact absurd (List.mem_map.mpr ⟨36, by rw [e]; simp, rfl⟩) h'

theorem crTexts_ok : ∀ rows ∈ [crIdx0, crIdx1, crIdx2, crIdx3, crIdx4, crIdx5, crIdx6],
    (rows.all fun v => textOK crBuf v.browser64 && textOK crBuf v.version64) = true := by decide +kernel

theorem hrTexts_ok : (hrIdx.all fun x => textOK hrBuf (.ofNat x.2)) = true := by decide +kernel

theorem vrTexts_ok : (vrIdx.all fun v => textOK vrBuf v.brand64) = true := by decide +kernel

theorem orTexts_ok : (orOs.all fun v => textOK orBuf v.name64 && textOK orBuf v.version64) = true := by decide +kernel

theorem ovTexts_ok : (orOv.all fun v => textOK orBuf v.version64) = true := by decide +kernel

theorem drTexts_ok : ∀ rows ∈ [drIdx0, drIdx1, drIdx2, drIdx3, drIdx4, drIdx5, drIdx6, drIdx7],
    (rows.all fun v => textOK drBuf v.brand64) = true := by decide +kernel

def dmTextB (v : ModelTuple) : Bool := templateOK drBuf v.model64

theorem dmText_0 : drDm_0.all dmTextB = true := by decide +kernel
theorem dmText_1 : drDm_1.all dmTextB = true := by decide +kernel
theorem dmText_2 : drDm_2.all dmTextB = true := by decide +kernel
theorem dmText_3 : drDm_3.all dmTextB = true := by decide +kernel
theorem dmText_4 : drDm_4.all dmTextB = true := by decide +kernel
theorem dmText_5 : drDm_5.all dmTextB = true := by decide +kernel
theorem dmText_6 : drDm_6.all dmTextB = true := by decide +kernel
theorem dmText_7 : drDm_7.all dmTextB = true := by decide +kernel
theorem dmText_8 : drDm_8.all dmTextB = true := by decide +kernel
theorem dmText_9 : drDm_9.all dmTextB = true := by decide +kernel
theorem dmText_10 : drDm_10.all dmTextB = true := by decide +kernel
theorem dmText_11 : drDm_11.all dmTextB = true := by decide +kernel
theorem dmText_12 : drDm_12.all dmTextB = true := by decide +kernel
theorem dmText_13 : drDm_13.all dmTextB = true := by decide +kernel
theorem dmText_14 : drDm_14.all dmTextB = true := by decide +kernel
theorem dmText_15 : drDm_15.all dmTextB = true := by decide +kernel
theorem dmText_16 : drDm_16.all dmTextB = true := by decide +kernel
theorem dmText_17 : drDm_17.all dmTextB = true := by decide +kernel
theorem dmText_18 : drDm_18.all dmTextB = true := by decide +kernel
theorem dmText_19 : drDm_19.all dmTextB = true := by decide +kernel
theorem dmText_20 : drDm_20.all dmTextB = true := by decide +kernel
theorem dmText_21 : drDm_21.all dmTextB = true := by decide +kernel
theorem dmText_22 : drDm_22.all dmTextB = true := by decide +kernel
theorem dmText_23 : drDm_23.all dmTextB = true := by decide +kernel
theorem dmText_24 : drDm_24.all dmTextB = true := by decide +kernel
theorem dmText_25 : drDm_25.all dmTextB = true := by decide +kernel
theorem dmText_26 : drDm_26.all dmTextB = true := by decide +kernel
theorem dmText_27 : drDm_27.all dmTextB = true := by decide +kernel
theorem dmText_28 : drDm_28.all dmTextB = true := by decide +kernel
theorem dmText_29 : drDm_29.all dmTextB = true := by decide +kernel
theorem dmText_30 : drDm_30.all dmTextB = true := by decide +kernel
theorem dmText_31 : drDm_31.all dmTextB = true := by decide +kernel
theorem dmText_32 : drDm_32.all dmTextB = true := by decide +kernel

theorem dmText_append {a b : List ModelTuple} (h : a.all dmTextB = true) (h' : b.all dmTextB = true) : (a ++ b).all dmTextB = true := by
  rw [List.all_append, h, h']; rfl

theorem drDm_text : drDm.all dmTextB = true :=
  dmText_append (dmText_append (dmText_append (dmText_append (dmText_append (dmText_append (dmText_append (dmText_append (dmText_append (dmText_append (dmText_append (dmText_append (dmText_append (dmText_append (dmText_append (dmText_append (dmText_append (dmText_append (dmText_append (dmText_append (dmText_append (dmText_append (dmText_append (dmText_append (dmText_append (dmText_append (dmText_append (dmText_append (dmText_append (dmText_append (dmText_append (dmText_append dmText_0 dmText_1) dmText_2) dmText_3) dmText_4) dmText_5) dmText_6) dmText_7) dmText_8) dmText_9) dmText_10) dmText_11) dmText_12) dmText_13) dmText_14) dmText_15) dmText_16) dmText_17) dmText_18) dmText_19) dmText_20) dmText_21) dmText_22) dmText_23) dmText_24) dmText_25) dmText_26) dmText_27) dmText_28) dmText_29) dmText_30) dmText_31) dmText_32

end Verif.Data

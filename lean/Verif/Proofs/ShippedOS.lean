import Verif.Proofs.ShippedClient
/-
The shipped OS, vendor and hint tables are well formed.
-/
set_option maxRecDepth 20000
namespace Verif.Data

/-- What is checked of an OS rule: `nre`, `nov` and `len` are the sizes of `__or_re`, `__or_ov` and `__or_buf`, `ncap` the group counts. -/
def osRowB (nre nov len ncap : Nat) (v : OSTuple) : Bool :=
  (match v.matchRI with
    | .ofNat i => Nat.blt i nre && groupB (digit ncap i) v.nameSI && groupB (digit ncap i) v.versionSI
    | .negSucc _ => inBufB len v.match64) &&
  inBufB len v.name64 && inBufB len v.version64 &&
  (Nat.beq v.versions64.toNat 0 ||
    Nat.blt (v.versions64.toNat / 4294967296) (v.versions64.toNat % 4294967296) && Nat.ble (v.versions64.toNat % 4294967296) nov)

/-- What is checked of an OS version rule. -/
def osVersionRowB (nre len ncap : Nat) (v : OSVersionTuple) : Bool :=
  (match v.matchRI with
    | .ofNat i => Nat.blt i nre && groupB (digit ncap i) v.versionSI
    | .negSucc _ => inBufB len v.match64) &&
  inBufB len v.version64

theorem orOs_ok : orOs.all (osRowB 470 211 2915 orNcapPacked) = true := by decide +kernel
theorem orOv_ok : orOv.all (osVersionRowB 470 2915 orNcapPacked) = true := by decide +kernel
theorem orOv_len : orOv.length = 211 := by decide +kernel
theorem orBuf_len : bufLen orBuf = 2915 := by decide +kernel
theorem orRe_len : orRe.length = 470 := by decide +kernel
theorem orNcap_packed : pack orNcap = orNcapPacked := by decide +kernel

theorem orRe_groups_0 : groupsB orRe_0 orNcap_0 = true := by decide +kernel
theorem orRe_groups_1 : groupsB orRe_1 orNcap_1 = true := by decide +kernel
theorem orRe_groups : groupsB orRe orNcap = true := groupsB_append orRe_groups_0 orRe_groups_1

section
variable (L : RegexpLib)

theorem os_rows (u : Bytes) : (shipped L.compile).orOs ≠ [] ∧ ∀ v ∈ (shipped L.compile).orOs, OSRowWF (shipped L.compile) u v := by
  refine ⟨fun h => ?_, fun v hv => ?_⟩
  · have : orOs.isEmpty = false := by decide +kernel
    have h : orOs = [] := h
    rw [h] at this; cases this
  have h := List.all_eq_true.mp orOs_ok v hv
  simp only [osRowB, Bool.and_eq_true] at h
  obtain ⟨⟨⟨h1, h2⟩, h3⟩, h4⟩ := h
  have inb : ∀ {e}, inBufB 2915 e = true → InBuf (shipped L.compile).orBuf e := fun h => inBuf_of orBuf_len h
  refine ⟨fun h0 => ?_, fun h0 => ?_, inb h2, inb h3, fun h0 => ?_⟩
  · rw [ofNat_of_nonneg h0] at h1
    simp only [Bool.and_eq_true] at h1
    obtain ⟨⟨hi, h1⟩, h5⟩ := h1
    obtain ⟨p, hp, hre⟩ := re_get L orRe_len (blt_lt hi)
    refine ⟨L.compile (buf p), hre, fun _ => ⟨groupB_spec ?_, groupB_spec ?_⟩⟩
    · rw [L.ncap, groupsB_spec orRe_groups hp, orNcap_packed]; exact h1
    · rw [L.ncap, groupsB_spec orRe_groups hp, orNcap_packed]; exact h5
  · match hr : v.matchRI with
    | .ofNat n => rw [hr] at h0; exact absurd h0 (by simp)
    | .negSucc n => rw [hr] at h1; exact inb h1
  · simp only [Bool.or_eq_true, Bool.and_eq_true] at h4
    rcases h4 with h4 | ⟨h4, h5⟩
    · exact absurd (UInt64.toNat_inj.mp (Nat.eq_of_beq_eq_true h4)) h0
    · refine ⟨blt_lt h4, ?_⟩
      have : (shipped L.compile).orOv.length = 211 := orOv_len
      rw [this]; exact Nat.le_of_ble_eq_true h5

theorem os_versions (u : Bytes) : ∀ v ∈ (shipped L.compile).orOv, OSVersionRowWF (shipped L.compile) u v := by
  intro v hv
  have h := List.all_eq_true.mp orOv_ok v hv
  simp only [osVersionRowB, Bool.and_eq_true] at h
  obtain ⟨h1, h2⟩ := h
  have inb : ∀ {e}, inBufB 2915 e = true → InBuf (shipped L.compile).orBuf e := fun h => inBuf_of orBuf_len h
  refine ⟨fun h0 => ?_, fun h0 => ?_, inb h2⟩
  · rw [ofNat_of_nonneg h0] at h1
    simp only [Bool.and_eq_true] at h1
    obtain ⟨hi, h1⟩ := h1
    obtain ⟨p, hp, hre⟩ := re_get L orRe_len (blt_lt hi)
    refine ⟨L.compile (buf p), hre, fun _ => groupB_spec ?_⟩
    rw [L.ncap, groupsB_spec orRe_groups hp, orNcap_packed]; exact h1
  · match hr : v.matchRI with
    | .ofNat n => rw [hr] at h0; exact absurd h0 (by simp)
    | .negSucc n => rw [hr] at h1; exact inb h1

/-- The range is empty or ends within a table of `n` elements. -/
def inTableB (n : Nat) (e : Entry64) : Bool := Nat.ble (e.toNat % 4294967296) (e.toNat / 4294967296) || Nat.ble (e.toNat % 4294967296) n

theorem inTable_of {α : Type} {l : List α} {n : Nat} (hn : l.length = n) {e : Entry64} (h : inTableB n e = true) : InTable l e := by
  simp only [inTableB, Bool.or_eq_true] at h
  subst hn
  exact h.imp Nat.le_of_ble_eq_true Nat.le_of_ble_eq_true

theorem vrIdx_ok : vrIdx.all (fun v => inBufB 83 v.brand64 && inTableB 39 v.range64) = true := by decide +kernel
theorem vrBuf_len : bufLen vrBuf = 83 := by decide +kernel
theorem vrRe_len : vrRe.length = 39 := by decide +kernel

theorem vendor_rows : ∀ v ∈ (shipped L.compile).vrIdx, VendorRowWF (shipped L.compile) v := by
  intro v hv
  have h := List.all_eq_true.mp vrIdx_ok v hv
  simp only [Bool.and_eq_true] at h
  exact ⟨inBuf_of vrBuf_len h.1, inTable_of (by simp only [shipped, List.length_map]; exact vrRe_len) h.2⟩

theorem hrIdx_ok : hrIdx.all (fun x => inBufB 5827 (.ofNat x.2)) = true := by decide +kernel
theorem hrBuf_len : bufLen hrBuf = 5827 := by decide +kernel

theorem hint_rows : ∀ h e, (shipped L.compile).hrIdx h = some e → InBuf (shipped L.compile).hrBuf e := by
  intro h e he
  simp only [shipped, mapOf, Option.map_map, Option.map_eq_some_iff] at he
  obtain ⟨x, hx, rfl⟩ := he
  exact inBuf_of hrBuf_len (List.all_eq_true.mp hrIdx_ok x (List.mem_of_find?_eq_some hx))

end

end Verif.Data

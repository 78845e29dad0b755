import Verif.Proofs.ShippedOS
/-
The shipped device tables are well formed.
-/
set_option maxRecDepth 20000
namespace Verif.Data

/-- What is checked of a device rule: `nre`, `ndm` and `len` are the sizes of `__dr_re`, `__dr_dm` and `__dr_buf`. -/
def deviceRowB (nre ndm len : Nat) (v : DeviceTuple) : Bool :=
  (match v.matchRI with
    | .ofNat i => Nat.blt i nre
    | .negSucc k => Nat.beq k 0 && inBufB len v.match64) &&
  inBufB len v.type64 && inBufB len v.brand64 &&
  (match v.modelSI with
    | .ofNat i => Nat.blt i ndm
    | .negSucc k => Nat.beq k 0 && inTableB ndm v.models64)

/-- The text at `e` does not end in a dollar sign. -/
def noDollarB (cs : List Chunk) (e : Entry64) : Bool :=
  Nat.ble (e.toNat % 4294967296) (e.toNat / 4294967296) ||
    (match byteAt cs (Nat.pred (e.toNat % 4294967296)) with
      | some b => !(Nat.beq b 36)
      | none => true)

/-- What is checked of a model rule. -/
def modelRowB (nre len : Nat) (cs : List Chunk) (v : ModelTuple) : Bool :=
  (match v.matchRI with
    | .ofNat i => Nat.blt i nre
    | .negSucc _ => inBufB len v.match64) &&
  inBufB len v.type64 && inBufB len v.model64 && noDollarB cs v.model64 &&
  Nat.ble (v.model64.toNat % 4294967296 - v.model64.toNat / 4294967296) 49

def drRowsB (rows : List DeviceTuple) : Bool := rows.all (deviceRowB 12438 16062 179372)
def dmRowsB (rows : List ModelTuple) : Bool := rows.all (modelRowB 12438 179372 drBuf)

theorem drIdx0_ok : drRowsB drIdx0 = true := by decide +kernel
theorem drIdx1_ok : drRowsB drIdx1 = true := by decide +kernel
theorem drIdx2_ok : drRowsB drIdx2 = true := by decide +kernel
theorem drIdx3_ok : drRowsB drIdx3 = true := by decide +kernel
theorem drIdx4_ok : drRowsB drIdx4 = true := by decide +kernel
theorem drIdx5_ok : drRowsB drIdx5 = true := by decide +kernel
theorem drIdx6_ok : drRowsB drIdx6 = true := by decide +kernel
theorem drIdx7_ok : drRowsB drIdx7 = true := by decide +kernel

theorem drBuf_len : bufLen drBuf = 179372 := by decide +kernel
theorem drDm_len : drDm.length = 16062 := by decide +kernel
theorem drRe_len : drRe.length = 12438 := by decide +kernel

theorem drDm_0_ok : dmRowsB drDm_0 = true := by decide +kernel
theorem drDm_1_ok : dmRowsB drDm_1 = true := by decide +kernel
theorem drDm_2_ok : dmRowsB drDm_2 = true := by decide +kernel
theorem drDm_3_ok : dmRowsB drDm_3 = true := by decide +kernel
theorem drDm_4_ok : dmRowsB drDm_4 = true := by decide +kernel
theorem drDm_5_ok : dmRowsB drDm_5 = true := by decide +kernel
theorem drDm_6_ok : dmRowsB drDm_6 = true := by decide +kernel
theorem drDm_7_ok : dmRowsB drDm_7 = true := by decide +kernel
theorem drDm_8_ok : dmRowsB drDm_8 = true := by decide +kernel
theorem drDm_9_ok : dmRowsB drDm_9 = true := by decide +kernel
theorem drDm_10_ok : dmRowsB drDm_10 = true := by decide +kernel
theorem drDm_11_ok : dmRowsB drDm_11 = true := by decide +kernel
theorem drDm_12_ok : dmRowsB drDm_12 = true := by decide +kernel
theorem drDm_13_ok : dmRowsB drDm_13 = true := by decide +kernel
theorem drDm_14_ok : dmRowsB drDm_14 = true := by decide +kernel
theorem drDm_15_ok : dmRowsB drDm_15 = true := by decide +kernel
theorem drDm_16_ok : dmRowsB drDm_16 = true := by decide +kernel
theorem drDm_17_ok : dmRowsB drDm_17 = true := by decide +kernel
theorem drDm_18_ok : dmRowsB drDm_18 = true := by decide +kernel
theorem drDm_19_ok : dmRowsB drDm_19 = true := by decide +kernel
theorem drDm_20_ok : dmRowsB drDm_20 = true := by decide +kernel
theorem drDm_21_ok : dmRowsB drDm_21 = true := by decide +kernel
theorem drDm_22_ok : dmRowsB drDm_22 = true := by decide +kernel
theorem drDm_23_ok : dmRowsB drDm_23 = true := by decide +kernel
theorem drDm_24_ok : dmRowsB drDm_24 = true := by decide +kernel
theorem drDm_25_ok : dmRowsB drDm_25 = true := by decide +kernel
theorem drDm_26_ok : dmRowsB drDm_26 = true := by decide +kernel
theorem drDm_27_ok : dmRowsB drDm_27 = true := by decide +kernel
theorem drDm_28_ok : dmRowsB drDm_28 = true := by decide +kernel
theorem drDm_29_ok : dmRowsB drDm_29 = true := by decide +kernel
theorem drDm_30_ok : dmRowsB drDm_30 = true := by decide +kernel
theorem drDm_31_ok : dmRowsB drDm_31 = true := by decide +kernel
theorem drDm_32_ok : dmRowsB drDm_32 = true := by decide +kernel

theorem dm_append {a b : List ModelTuple} (h : dmRowsB a = true) (h' : dmRowsB b = true) : dmRowsB (a ++ b) = true := by
  simp only [dmRowsB] at h h' ⊢
  rw [List.all_append, h, h']; rfl

theorem drDm_ok : dmRowsB drDm = true :=
  dm_append (dm_append (dm_append (dm_append (dm_append (dm_append (dm_append (dm_append (dm_append (dm_append (dm_append (dm_append (dm_append (dm_append (dm_append (dm_append (dm_append (dm_append (dm_append (dm_append (dm_append (dm_append (dm_append (dm_append (dm_append (dm_append (dm_append (dm_append (dm_append (dm_append (dm_append (dm_append drDm_0_ok drDm_1_ok) drDm_2_ok) drDm_3_ok) drDm_4_ok) drDm_5_ok) drDm_6_ok) drDm_7_ok) drDm_8_ok) drDm_9_ok) drDm_10_ok) drDm_11_ok) drDm_12_ok) drDm_13_ok) drDm_14_ok) drDm_15_ok) drDm_16_ok
   ) drDm_17_ok) drDm_18_ok) drDm_19_ok) drDm_20_ok) drDm_21_ok) drDm_22_ok) drDm_23_ok) drDm_24_ok) drDm_25_ok) drDm_26_ok) drDm_27_ok) drDm_28_ok) drDm_29_ok) drDm_30_ok) drDm_31_ok) drDm_32_ok

theorem noDollar_of {cs : List Chunk} {e : Entry64} (h : noDollarB cs e = true) {t : Bytes} (ht : Text (buf cs) e t) : t.getLast? ≠ some 36 := by
  obtain ⟨a, z, hb, h1, h2⟩ := ht
  intro hl
  have hne : t ≠ [] := by rintro rfl; cases hl
  have hpos : 0 < t.length := List.length_pos_iff.mpr hne
  simp only [noDollarB, Bool.or_eq_true] at h
  rcases h with h | h
  · have := Nat.le_of_ble_eq_true h; omega
  · have : byteAt cs (Nat.pred (e.toNat % 4294967296)) = some 36 := by
      rw [byteAt_eq, hb, List.append_assoc, List.getElem?_append_right (by rw [Nat.pred_eq_sub_one]; omega),
        List.getElem?_append_left (by rw [Nat.pred_eq_sub_one]; omega)]
      rw [List.getLast?_eq_getElem?] at hl
      have : Nat.pred (e.toNat % 4294967296) - a.length = t.length - 1 := by rw [Nat.pred_eq_sub_one]; omega
      rw [this, hl]; rfl
    rw [this] at h; cases h

section
variable (L : RegexpLib)

theorem drRe_get {i : Nat} (h : Nat.blt i 12438 = true) : ∃ re, (shipped L.compile).drRe[i]? = some re :=
  let ⟨p, _, hre⟩ := re_get L drRe_len (blt_lt h)
  ⟨L.compile (buf p), hre⟩

theorem model_rows : ∀ v ∈ (shipped L.compile).drDm, ModelRowWF (shipped L.compile) v := by
  intro v hv
  have h := List.all_eq_true.mp drDm_ok v hv
  simp only [modelRowB, Bool.and_eq_true] at h
  obtain ⟨⟨⟨⟨h1, h2⟩, h3⟩, h4⟩, -⟩ := h
  have inb : ∀ {e}, inBufB 179372 e = true → InBuf (shipped L.compile).drBuf e := fun h => inBuf_of drBuf_len h
  refine ⟨fun h0 => ?_, fun h0 => ?_, inb h2, inb h3, fun t ht => noDollar_of h4 ht⟩
  · rw [ofNat_of_nonneg h0] at h1
    exact drRe_get L h1
  · match hr : v.matchRI with
    | .ofNat n => rw [hr] at h0; exact absurd h0 (by simp)
    | .negSucc n => rw [hr] at h1; exact inb h1

theorem model_short : ∀ v ∈ (shipped L.compile).drDm, v.model64.toNat % 4294967296 - v.model64.toNat / 4294967296 ≤ 49 := by
  intro v hv
  have h := List.all_eq_true.mp drDm_ok v hv
  simp only [modelRowB, Bool.and_eq_true] at h
  exact Nat.le_of_ble_eq_true h.2

theorem device_rows : ∀ rows ∈ (shipped L.compile).drIdx, ∀ v ∈ rows, DeviceRowWF (shipped L.compile) v := by
  intro rows hr v hv
  have h : deviceRowB 12438 16062 179372 v = true := by
    have key : ∀ {rows}, drRowsB rows = true → v ∈ rows → deviceRowB 12438 16062 179372 v = true := fun h hv => List.all_eq_true.mp h v hv
    simp only [shipped, List.mem_cons, List.not_mem_nil, or_false] at hr
    rcases hr with rfl | rfl | rfl | rfl | rfl | rfl | rfl | rfl
    · exact key drIdx0_ok hv
    · exact key drIdx1_ok hv
    · exact key drIdx2_ok hv
    · exact key drIdx3_ok hv
    · exact key drIdx4_ok hv
    · exact key drIdx5_ok hv
    · exact key drIdx6_ok hv
    · exact key drIdx7_ok hv
  simp only [deviceRowB, Bool.and_eq_true] at h
  obtain ⟨⟨⟨h1, h2⟩, h3⟩, h4⟩ := h
  have inb : ∀ {e}, inBufB 179372 e = true → InBuf (shipped L.compile).drBuf e := fun h => inBuf_of drBuf_len h
  have hneg : v.matchRI < 0 → v.matchRI = -1 ∧ InBuf (shipped L.compile).drBuf v.match64 := fun h0 => by
    match hr : v.matchRI with
    | .ofNat n => rw [hr] at h0; exact absurd h0 (by simp)
    | .negSucc n =>
      rw [hr] at h1
      simp only [Bool.and_eq_true] at h1
      have := Nat.eq_of_beq_eq_true h1.1
      subst this
      exact ⟨rfl, inb h1.2⟩
  refine ⟨fun h0 => ?_, fun h0 => (hneg h0).1, fun h0 => (hneg h0).2, inb h2, inb h3, fun h0 => ?_, fun h0 => ?_⟩
  · rw [ofNat_of_nonneg h0] at h1
    exact drRe_get L h1
  · match hr : v.modelSI with
    | .ofNat n =>
      rw [hr] at h4
      refine ⟨Int.natCast_nonneg n, ?_⟩
      have : (shipped L.compile).drDm.length = 16062 := drDm_len
      rw [this]; exact blt_lt h4
    | .negSucc n =>
      rw [hr] at h4 h0
      simp only [Bool.and_eq_true] at h4
      have := Nat.eq_of_beq_eq_true h4.1
      subst this
      exact absurd rfl h0
  · match hr : v.modelSI with
    | .ofNat n => rw [hr] at h0; cases h0
    | .negSucc n =>
      rw [hr] at h4
      simp only [Bool.and_eq_true] at h4
      exact inTable_of drDm_len h4.2

theorem device_groups : ∀ i, i < 8 → ∃ rows, (shipped L.compile).drIdx[i]? = some rows ∧ rows ≠ [] := by
  have ne : ∀ {l : List DeviceTuple}, l.isEmpty = false → l ≠ [] := fun h e => by subst e; cases h
  intro i hi
  match i, hi with
  | 0, _ => exact ⟨_, rfl, ne (by decide +kernel)⟩
  | 1, _ => exact ⟨_, rfl, ne (by decide +kernel)⟩
  | 2, _ => exact ⟨_, rfl, ne (by decide +kernel)⟩
  | 3, _ => exact ⟨_, rfl, ne (by decide +kernel)⟩
  | 4, _ => exact ⟨_, rfl, ne (by decide +kernel)⟩
  | 5, _ => exact ⟨_, rfl, ne (by decide +kernel)⟩
  | 6, _ => exact ⟨_, rfl, ne (by decide +kernel)⟩
  | 7, _ => exact ⟨_, rfl, ne (by decide +kernel)⟩
  | n + 8, h => omega

/-- The shipped tables of operating systems, devices and vendors are well formed. -/
theorem shipped_wfdev (u : Bytes) : WFdev (shipped L.compile) u where
  orOs := os_rows L u
  orOv := os_versions L u
  drCat := device_groups L
  dr := device_rows L
  drDm := model_rows L
  vr := vendor_rows L
  orRe := res_wf L _
  drRe := res_wf L _

theorem shipped_wfbase (u : Bytes) : WFbase (shipped L.compile) u where
  toWFdev := shipped_wfdev L u
  crCat := client_groups L
  cr := fun rows hr v hv => (client_rows L rows hr v hv).1
  crEf := engine_fns L
  crEv := engine_versions L
  hr := hint_rows L
  crRe := res_wf L _
  crEvre := res_wf L _

/-- The shipped tables are well formed for every user agent that none of the unsafe rules is selected for. -/
theorem shipped_wf {u : Bytes} (hu : SafeUA L u) : WFfor (shipped L.compile) u where
  toWFbase := shipped_wfbase L u
  crGroup := fun rows hr v hv => (client_rows L rows hr v hv.mem.1).2.resolve_right (hu rows hr v hv)

end

end Verif.Data

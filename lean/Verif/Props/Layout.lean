import Verif.Props.Codec
/-
C93: the bytes of a cache record.
-/
namespace Verif

open CacheEntry

/-- The fields of a record: the offset of the first byte, the number of bytes, and the number they hold. -/
def Spec.slots : List (Nat × Nat × (CacheEntry → Nat)) :=
  [(0, 8, fun e => e.bits.toNat), (8, 1, fun e => e.clientType.toNat), (9, 8, fun e => e.clientName64.toNat), (17, 8, fun e => e.clientVersion64.toNat),
    (25, 8, fun e => e.engineName64.toNat), (33, 8, fun e => e.engineVersion64.toNat), (41, 2, fun e => e.deviceType.toNat), (43, 8, fun e => e.brandName64.toNat),
    (51, 8, fun e => e.modelName64.toNat), (59, 8, fun e => e.osName64.toNat), (67, 8, fun e => e.osVersion64.toNat), (75, 8, fun e => e.hkey.toNat),
    (83, 8, fun e => e.timestamp.toUInt64.toNat), (91, 4, fun e => e.data.length)]

/-- `d` begins with the record `e`: every field at its place, the byte of value `256^i` at offset `i`, and the payload from byte 95 on. -/
def Spec.Layout (e : CacheEntry) (d : Bytes) : Prop :=
  (∀ s ∈ Spec.slots, ∀ i, i < s.2.1 → ∃ b, d[s.1 + i]? = some b ∧ b.toNat = s.2.2 e / 256 ^ i % 256) ∧ ∀ i, i < e.data.length → d[95 + i]? = e.data[i]?

theorem leBytes_get {n v i : Nat} (h : i < n) : (leBytes n v)[i]? = some (UInt8.ofNat (v / 256 ^ i)) := by
  induction n generalizing v i with
  | zero => omega
  | succ n ih =>
    cases i with
    | zero => simp [leBytes]
    | succ i =>
      rw [leBytes, List.getElem?_cons_succ, ih (by omega), Nat.div_div_eq_div_mul, Nat.pow_succ, Nat.mul_comm]

/-- Fields one after the other, from offset `o`. -/
def Consec : Nat → List (Nat × Nat × (CacheEntry → Nat)) → Prop
  | _, [] => True
  | o, s :: l => s.1 = o ∧ Consec (o + s.2.1) l

theorem Consec.le {o : Nat} {l : List (Nat × Nat × (CacheEntry → Nat))} (h : Consec o l) : ∀ s ∈ l, o ≤ s.1 := by
  induction l generalizing o with
  | nil => nofun
  | cons x l ih =>
    intro s hs
    rcases List.mem_cons.mp hs with rfl | hs
    · exact Nat.le_of_eq h.1.symm
    · have := ih h.2 s hs; omega

theorem flat_get {e : CacheEntry} {o : Nat} {l : List (Nat × Nat × (CacheEntry → Nat))} (h : Consec o l) {s : Nat × Nat × (CacheEntry → Nat)} (hs : s ∈ l) {i : Nat}
    (hi : i < s.2.1) : (l.flatMap fun s => leBytes s.2.1 (s.2.2 e))[s.1 + i - o]? = some (UInt8.ofNat (s.2.2 e / 256 ^ i)) := by
  induction l generalizing o with
  | nil => cases hs
  | cons x l ih =>
    rw [List.flatMap_cons]
    rcases List.mem_cons.mp hs with rfl | hs
    · rw [h.1, show o + i - o = i by omega, List.getElem?_append_left (by simpa using hi), leBytes_get hi]
    · have hle := h.2.le s hs
      rw [List.getElem?_append_right (by rw [leBytes_length]; omega), leBytes_length, show s.1 + i - o - x.2.1 = s.1 + i - (o + x.2.1) by omega]
      exact ih h.2 hs

theorem slots_consec : Consec 0 Spec.slots := by
  unfold Spec.slots
  simp only [Consec, and_true]

theorem leBytes_mod (n v : Nat) : leBytes n (v % 256 ^ n) = leBytes n v := by
  apply List.ext_getElem? fun i => ?_
  by_cases h : i < n
  · rw [leBytes_get h, leBytes_get h]
    congr 1
    apply UInt8.toNat_inj.mp
    rw [UInt8.toNat_ofNat', UInt8.toNat_ofNat']
    obtain ⟨k, rfl⟩ : ∃ k, n = i + (k + 1) := ⟨n - i - 1, by omega⟩
    rw [Nat.pow_add, Nat.mod_mul_right_div_self, Nat.pow_succ]
    exact Nat.mod_mul_left_mod _ _ _
  · rw [List.getElem?_eq_none (by simp; omega), List.getElem?_eq_none (by simp; omega)]

theorem header_slots (e : CacheEntry) : e.header = Spec.slots.flatMap fun s => leBytes s.2.1 (s.2.2 e) := by
  have := leBytes_mod 4 e.data.length
  rw [show (256 : Nat) ^ 4 = 2 ^ 32 by decide] at this
  simp only [header, Spec.slots, List.flatMap_cons, List.flatMap_nil, List.append_nil, List.append_assoc, this]

/-- What a record is written as has the layout. -/
theorem layout_of (e : CacheEntry) (rest : Bytes) : Spec.Layout e (e.header ++ e.data ++ rest) := by
  constructor
  · intro s hs i hi
    have h := flat_get (e := e) slots_consec hs hi
    rw [← header_slots, Nat.sub_zero] at h
    have hlt : s.1 + i < e.header.length := by
      rcases Nat.lt_or_ge (s.1 + i) e.header.length with h' | h'
      · exact h'
      · rw [List.getElem?_eq_none h'] at h; cases h
    refine ⟨_, ?_, UInt8.toNat_ofNat'⟩
    rw [List.append_assoc, List.getElem?_append_left hlt, h]
  · intro i hi
    rw [List.append_assoc, List.getElem?_append_right (by simp), header_length, List.getElem?_append_left (by omega), show 95 + i - 95 = i by omega]

theorem slots_cover : ∀ j, j < 95 → ∃ s ∈ Spec.slots.map fun s => (s.1, s.2.1), s.1 ≤ j ∧ j < s.1 + s.2 := by decide

/-- The layout determines the bytes. -/
theorem layout_unique {e : CacheEntry} {d : Bytes} (h : Spec.Layout e d) : ∃ rest, d = e.header ++ e.data ++ rest := by
  have h' := layout_of e []
  rw [List.append_nil] at h'
  have key : ∀ j, j < 95 + e.data.length → d[j]? = (e.header ++ e.data)[j]? := by
    intro j hj
    by_cases hj95 : j < 95
    · obtain ⟨p, hp, h1, h2⟩ := slots_cover j hj95
      obtain ⟨s, hs, rfl⟩ := List.mem_map.mp hp
      obtain ⟨i, rfl⟩ : ∃ i, j = s.1 + i := ⟨j - s.1, by omega⟩
      obtain ⟨b, hb, hb'⟩ := h.1 s hs i (by omega)
      obtain ⟨c, hc, hc'⟩ := h'.1 s hs i (by omega)
      rw [hb, hc, UInt8.toNat_inj.mp (hb'.trans hc'.symm)]
    · obtain ⟨i, rfl⟩ : ∃ i, j = 95 + i := ⟨j - 95, by omega⟩
      rw [h.2 i (by omega), h'.2 i (by omega)]
  refine ⟨d.drop (95 + e.data.length), ?_⟩
  have : d.take (95 + e.data.length) = e.header ++ e.data := by
    apply List.ext_getElem? fun j => ?_
    by_cases hj : j < 95 + e.data.length
    · rw [List.getElem?_take_of_lt hj, key j hj]
    · rw [List.getElem?_eq_none (by simp; omega), List.getElem?_eq_none (by simp; omega)]
  rw [← this, List.take_append_drop]

/-- **C93**. What `MarshalTo` writes has the layout. -/
theorem C93_write {e : CacheEntry} {buf out : Bytes} {n : Nat} (h : e.marshalTo buf = some (out, n, none)) : Spec.Layout e out := by
  rcases Nat.lt_or_ge buf.length e.size with hs | hs
  · unfold marshalTo at h
    rw [if_pos hs] at h
    cases h
  · rw [marshalTo_ok e buf hs] at h
    cases h
    exact layout_of e _

/-- **C93**. `Unmarshal` makes the record `e` of exactly the texts that begin with the layout of `e`, if the payload is below 4 GiB; whatever the receiver was. -/
theorem C93_read {r e : CacheEntry} {d : Bytes} : r.unmarshal d = some (e, none) ↔ Spec.Layout e d ∧ e.data.length < 2 ^ 32 := by
  constructor
  · intro h
    obtain ⟨h1, h2⟩ := C05_canonical r e d h
    obtain ⟨out, h3, h4⟩ := h2 d h1
    have hs : e.size = 95 + e.data.length := rfl
    obtain ⟨rest, ho⟩ := layout_unique (C93_write h3)
    have : d.take e.size = e.header ++ e.data := by
      rw [← h4, ho, List.take_left' (by simp [hs])]
    constructor
    · rw [← List.take_append_drop e.size d, this]
      exact layout_of e _
    · rw [unmarshal_eq] at h
      by_cases h5 : d.length < 95
      · simp [h5] at h
      · by_cases h6 : d.length < 95 + announced d
        · simp [h5, h6] at h
        · simp only [h5, h6, if_false, Option.some.injEq, Prod.mk.injEq, and_true] at h
          have hl : announced d < 2 ^ 32 := by
            rw [announced_eq_lengthField d (by omega)]
            unfold Spec.lengthField
            have b := fun x : UInt8 => x.toNat_lt
            have := b (d.getD 91 0); have := b (d.getD 92 0); have := b (d.getD 93 0); have := b (d.getD 94 0)
            omega
          rw [← h]
          simp only [List.length_take]
          omega
  · rintro ⟨h, hd⟩
    obtain ⟨rest, rfl⟩ := layout_unique h
    exact unmarshal_enc e r rest hd

/-- A record and its bytes. -/
example : Spec.Layout exEntry (exEntry.header ++ exEntry.data) := by
  have := C93_write (marshalTo_ok exEntry (List.replicate exEntry.size 0) (by simp))
  simpa using this

example : (exEntry.marshalTo (List.replicate exEntry.size 0)).map (fun x => ((x.1.drop 9).take 8, (x.1.drop 41).take 2, (x.1.drop 83).take 12)) =
    some ([57, 48, 0, 0, 0, 0, 0, 0], [100, 0], [249, 255, 255, 255, 255, 255, 255, 255, 10, 0, 0, 0]) := by decide +kernel

end Verif

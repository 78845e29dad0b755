import Verif.Proofs.Codec
/-
Properties C01-C08: the binary codec of CacheEntry (cache_entry.go).
-/
namespace Verif
open CacheEntry

/-! ### Specification vocabulary -/

/-- The little-endian 32-bit payload length stored at bytes 91..94 of an encoding. -/
def Spec.lengthField (d : Bytes) : Nat :=
  (d.getD 91 0).toNat + 256 * (d.getD 92 0).toNat + 65536 * (d.getD 93 0).toNat + 16777216 * (d.getD 94 0).toNat

/-- A concrete entry used in non-vacuity examples. -/
def exEntry : CacheEntry :=
  { bits := 0xF0, clientType := 5, clientName64 := 12345, deviceType := 100, data := ascii "round trip", hkey := 99999, timestamp := -7 }

/-! ### Lemmas -/

theorem announced_eq_lengthField (d : Bytes) (h : 95 ≤ d.length) : announced d = Spec.lengthField d := by
  have hd : (d.drop 91).take 4 = [d[91], d[92], d[93], d[94]] := by
    rw [List.drop_eq_getElem_cons (i := 91) (by omega), List.drop_eq_getElem_cons (i := 92) (by omega),
      List.drop_eq_getElem_cons (i := 93) (by omega), List.drop_eq_getElem_cons (i := 94) (by omega)]
    rfl
  have h1 : 91 < d.length := by omega
  have h2 : 92 < d.length := by omega
  have h3 : 93 < d.length := by omega
  have h4 : 94 < d.length := by omega
  simp only [announced, hd, ofLE, Spec.lengthField, List.getD_eq_getElem?_getD, List.getElem?_eq_getElem, h1, h2, h3, h4,
    Option.getD_some]
  omega

theorem unmarshal_enc (e r : CacheEntry) (rest : Bytes) (h : e.data.length < 2 ^ 32) :
    r.unmarshal (e.header ++ e.data ++ rest) = some (e, none) := by
  rw [unmarshal_eq]
  rw [List.append_assoc, announced_header, withHeader_header, Nat.mod_eq_of_lt h]
  rw [if_neg (by simp), if_neg (by simp)]
  rw [show List.drop 95 (e.header ++ (e.data ++ rest)) = e.data ++ rest by
    rw [drop_chunk _ _ _ (by simp)]; simp]
  simp

/-! ### C01 -/

/-- C01: encode into any sufficiently large buffer, decode into any receiver: the entry comes back, field by field. -/
theorem C01_roundtrip (e r : CacheEntry) (buf : Bytes) (hdata : e.data.length < 2 ^ 32) (hbuf : e.size ≤ buf.length) :
    ∃ out n, e.marshalTo buf = some (out, n, none) ∧ r.unmarshal out = some (e, none) ∧
      r.unmarshal (out.take n) = some (e, none) := by
  refine ⟨_, _, marshalTo_ok e buf hbuf, unmarshal_enc e r _ hdata, ?_⟩
  rw [show (e.header ++ e.data ++ buf.drop e.size).take e.size = e.header ++ e.data ++ [] by
    rw [take_all _ _ _ (by simp [size, minsz])]; simp]
  exact unmarshal_enc e r [] hdata

example : exEntry.data.length < 2 ^ 32 ∧ exEntry.size ≤ (List.replicate 120 (7 : UInt8)).length := by decide

/-! ### C02 -/

/-- C02: a successful MarshalTo returns exactly Size() = 95 + len(Data), keeps the buffer length, leaves every byte at or
after n alone, and the bytes before n do not depend on the previous contents of the buffer. -/
theorem C02_footprint (e : CacheEntry) (buf out : Bytes) (n : Nat) (h : e.marshalTo buf = some (out, n, none)) :
    n = e.size ∧ n = 95 + e.data.length ∧ out.length = buf.length ∧ (∀ i, n ≤ i → out[i]? = buf[i]?) ∧
    (∀ buf2 out2 n2, e.marshalTo buf2 = some (out2, n2, none) → out2.take n = out.take n) := by
  have key : ∀ b o m, e.marshalTo b = some (o, m, none) →
      e.size ≤ b.length ∧ o = e.header ++ e.data ++ b.drop e.size ∧ m = e.size := by
    intro b o m hb
    by_cases hl : b.length < e.size
    · rw [marshalTo_short e b hl] at hb; simp at hb
    · rw [marshalTo_ok e b (by omega)] at hb
      simp only [Option.some.injEq, Prod.mk.injEq] at hb
      exact ⟨by omega, hb.1.symm, hb.2.1.symm⟩
  obtain ⟨hl, ho, hn⟩ := key _ _ _ h
  have hs : e.size = 95 + e.data.length := rfl
  refine ⟨hn, by omega, ?_, ?_, ?_⟩
  · rw [ho]; simp; omega
  · intro i hi
    rw [ho, List.getElem?_append_right (by simp; omega)]
    simp only [List.getElem?_drop, List.length_append, header_length]
    congr 1; omega
  · intro b2 o2 n2 h2
    obtain ⟨_, ho2, _⟩ := key _ _ _ h2
    rw [ho, ho2, hn, take_all _ _ _ (by simp; omega), take_all _ _ _ (by simp; omega)]

example : ∃ out n, exEntry.marshalTo (List.replicate 120 7) = some (out, n, none) :=
  ⟨_, _, marshalTo_ok _ _ (by decide)⟩

/-! ### C03 -/

/-- C03: MarshalTo never panics; it fails exactly on buffers shorter than Size(), with ErrShortBuffer, count 0 and the
buffer untouched. -/
theorem C03_short_buffer (e : CacheEntry) (buf : Bytes) :
    (buf.length < e.size → e.marshalTo buf = some (buf, 0, some .shortBuffer)) ∧
    (e.size ≤ buf.length → ∃ out n, e.marshalTo buf = some (out, n, none)) :=
  ⟨marshalTo_short e buf, fun h => ⟨_, _, marshalTo_ok e buf h⟩⟩

example : (List.replicate 20 (0 : UInt8)).length < exEntry.size := by decide

/-! ### C04 -/

/-- C04: Unmarshal never panics on any bytes; it succeeds exactly when 95 bytes plus the announced payload are present,
and otherwise reports ErrUnexpectedEOF. -/
theorem C04_unmarshal_total (r : CacheEntry) (d : Bytes) :
    ∃ r' err, r.unmarshal d = some (r', err) ∧
      (err = none ↔ 95 ≤ d.length ∧ 95 + Spec.lengthField d ≤ d.length) ∧
      (err = none ∨ err = some .unexpectedEOF) := by
  rw [unmarshal_eq]
  by_cases h1 : d.length < 95
  · exact ⟨_, _, by rw [if_pos h1], by simp; omega, by simp⟩
  · rw [if_neg h1, announced_eq_lengthField d (by omega)]
    by_cases h2 : d.length < 95 + Spec.lengthField d
    · exact ⟨_, _, by rw [if_pos h2], by simp; omega, by simp⟩
    · exact ⟨_, _, by rw [if_neg h2], by simp; omega, by simp⟩

/-! ### C05 -/

theorem u64_toNat_ofLE (c : Bytes) (h : c.length = 8) : (UInt64.ofNat (ofLE c)).toNat = ofLE c := by
  have := ofLE_lt c; rw [h] at this
  rw [UInt64.toNat_ofNat']; exact Nat.mod_eq_of_lt (by simpa using this)

theorem u16_toNat_ofLE (c : Bytes) (h : c.length = 2) : (UInt16.ofNat (ofLE c)).toNat = ofLE c := by
  have := ofLE_lt c; rw [h] at this
  rw [UInt16.toNat_ofNat']; exact Nat.mod_eq_of_lt (by simpa using this)

theorem u8_toNat_ofLE (c : Bytes) (h : c.length = 1) : (UInt8.ofNat (ofLE c)).toNat = ofLE c := by
  have := ofLE_lt c; rw [h] at this
  rw [UInt8.toNat_ofNat']; exact Nat.mod_eq_of_lt (by simpa using this)

theorem leBytes_chunk (d : Bytes) (off n : Nat) (h : off + n ≤ d.length) :
    leBytes n (ofLE ((d.drop off).take n)) = (d.drop off).take n := by
  have := leBytes_ofLE ((d.drop off).take n)
  rwa [show ((d.drop off).take n).length = n by simp; omega] at this

theorem header_decoded (r : CacheEntry) (d : Bytes) (h : 95 ≤ d.length) (h2 : 95 + announced d ≤ d.length) :
    ({ r.withHeader d with data := (d.drop 95).take (announced d) } : CacheEntry).header = d.take 95 := by
  have hl : ∀ off n, off + n ≤ 95 → ((d.drop off).take n).length = n := by intro off n _; simp; omega
  have ha : announced d < 2 ^ 32 := by
    have := ofLE_lt ((d.drop 91).take 4); rw [hl 91 4 (by omega)] at this; simpa [announced] using this
  have hlen : ((d.drop 95).take (announced d)).length = announced d := by simp; omega
  simp only [header, withHeader, hlen, Nat.mod_eq_of_lt ha, UInt64.toUInt64_toInt64]
  simp only [u64_toNat_ofLE _ (hl 0 8 (by omega)), u8_toNat_ofLE _ (hl 8 1 (by omega)), u64_toNat_ofLE _ (hl 9 8 (by omega)),
    u64_toNat_ofLE _ (hl 17 8 (by omega)), u64_toNat_ofLE _ (hl 25 8 (by omega)), u64_toNat_ofLE _ (hl 33 8 (by omega)),
    u16_toNat_ofLE _ (hl 41 2 (by omega)), u64_toNat_ofLE _ (hl 43 8 (by omega)), u64_toNat_ofLE _ (hl 51 8 (by omega)),
    u64_toNat_ofLE _ (hl 59 8 (by omega)), u64_toNat_ofLE _ (hl 67 8 (by omega)), u64_toNat_ofLE _ (hl 75 8 (by omega)),
    u64_toNat_ofLE _ (hl 83 8 (by omega)), announced]
  rw [leBytes_chunk d 0 8 (by omega), leBytes_chunk d 8 1 (by omega), leBytes_chunk d 9 8 (by omega),
    leBytes_chunk d 17 8 (by omega), leBytes_chunk d 25 8 (by omega), leBytes_chunk d 33 8 (by omega),
    leBytes_chunk d 41 2 (by omega), leBytes_chunk d 43 8 (by omega), leBytes_chunk d 51 8 (by omega),
    leBytes_chunk d 59 8 (by omega), leBytes_chunk d 67 8 (by omega), leBytes_chunk d 75 8 (by omega),
    leBytes_chunk d 83 8 (by omega), leBytes_chunk d 91 4 (by omega)]
  simp only [List.drop_zero, ← List.take_add, Nat.reduceAdd]

/-- C05: if Unmarshal accepts `d`, re-encoding the decoded entry gives back exactly the first Size() bytes of `d`. -/
theorem C05_canonical (r e : CacheEntry) (d : Bytes) (h : r.unmarshal d = some (e, none)) :
    e.size ≤ d.length ∧
    ∀ buf, e.size ≤ buf.length → ∃ out, e.marshalTo buf = some (out, e.size, none) ∧ out.take e.size = d.take e.size := by
  rw [unmarshal_eq] at h
  by_cases h1 : d.length < 95
  · simp [h1] at h
  · by_cases h2 : d.length < 95 + announced d
    · simp [h1, h2] at h
    · simp only [h1, h2, if_false, Option.some.injEq, Prod.mk.injEq, and_true] at h
      have hh := header_decoded r d (by omega) (by omega)
      rw [h] at hh
      have hd : e.data = (d.drop 95).take (announced d) := by rw [← h]
      have hdl : e.data.length = announced d := by rw [hd]; simp; omega
      have hs : e.size = 95 + announced d := by simp [size, minsz, hdl]
      refine ⟨by omega, fun buf hb => ⟨_, marshalTo_ok e buf hb, ?_⟩⟩
      rw [take_all _ _ _ (by simp [size, minsz]), hh, hd, ← List.take_add, hs]

/-- C05, consequence: two accepted inputs that decode to the same entry agree on their first Size() bytes. -/
theorem C05_injective (r1 r2 e : CacheEntry) (d1 d2 : Bytes) (h1 : r1.unmarshal d1 = some (e, none))
    (h2 : r2.unmarshal d2 = some (e, none)) : d1.take e.size = d2.take e.size := by
  obtain ⟨l1, f1⟩ := C05_canonical _ _ _ h1
  obtain ⟨_, f2⟩ := C05_canonical _ _ _ h2
  obtain ⟨o1, m1, t1⟩ := f1 d1 l1
  obtain ⟨o2, m2, t2⟩ := f2 d1 l1
  rw [m1] at m2
  simp only [Option.some.injEq, Prod.mk.injEq, and_true] at m2
  rw [← t1, ← t2, m2]

example : ∃ d, ({} : CacheEntry).unmarshal d = some (exEntry, none) :=
  ⟨exEntry.header ++ exEntry.data ++ [1, 2, 3], unmarshal_enc exEntry {} _ (by decide)⟩

/-! ### C06 -/

/-- C06: no strict prefix of an encoding is accepted, and trailing bytes after a full encoding are ignored. -/
theorem C06_truncation (e r : CacheEntry) (buf out : Bytes) (n : Nat) (hdata : e.data.length < 2 ^ 32)
    (h : e.marshalTo buf = some (out, n, none)) :
    (∀ k, k < n → ∃ r', r.unmarshal (out.take k) = some (r', some .unexpectedEOF)) ∧
    (∀ tail, r.unmarshal (out.take n ++ tail) = some (e, none)) := by
  obtain ⟨hn, hn2, _, _, _⟩ := C02_footprint e buf out n h
  have hb : e.size ≤ buf.length := by
    by_cases hl : buf.length < e.size
    · rw [marshalTo_short e buf hl] at h; simp at h
    · omega
  rw [marshalTo_ok e buf hb] at h
  simp only [Option.some.injEq, Prod.mk.injEq, and_true] at h
  have hout : out.take n = e.header ++ e.data := by
    rw [← h.1, hn, take_all _ _ _ (by simp [size, minsz])]
  constructor
  · intro k hk
    have htk : out.take k = (e.header ++ e.data).take k := by
      rw [← hout, List.take_take, Nat.min_eq_left (by omega)]
    rw [htk, unmarshal_eq]
    have hlk : ((e.header ++ e.data).take k).length = k := by simp; omega
    by_cases h1 : k < 95
    · exact ⟨r, by rw [if_pos (by omega)]⟩
    · have hsplit : (e.header ++ e.data).take k = e.header ++ e.data.take (k - 95) := by
        rw [List.take_append, header_length, List.take_of_length_le (by rw [header_length]; omega)]
      rw [hsplit] at hlk ⊢
      rw [announced_header, if_neg (by omega), if_pos (by rw [Nat.mod_eq_of_lt hdata]; omega)]
      exact ⟨_, rfl⟩
  · intro tail
    rw [hout]; exact unmarshal_enc e r tail hdata

/-! ### C07 -/

/-- C07 (what holds): a failed Unmarshal never touches Data, and leaves the whole receiver unchanged when the input is
shorter than 95 bytes. The full claim "receiver unchanged on error" is false, see `C07_refuted`. -/
theorem C07_failed_unmarshal_partial (r r' : CacheEntry) (d : Bytes) (err : CodecErr)
    (h : r.unmarshal d = some (r', some err)) :
    r'.data = r.data ∧ (d.length < 95 → r' = r) := by
  rw [unmarshal_eq] at h
  by_cases h1 : d.length < 95
  · simp only [h1, if_true, Option.some.injEq, Prod.mk.injEq] at h
    rw [← h.1]; simp
  · by_cases h2 : d.length < 95 + announced d
    · simp only [h1, h2, if_false, if_true, Option.some.injEq, Prod.mk.injEq] at h
      rw [← h.1]; exact ⟨rfl, fun h => absurd h h1⟩
    · simp [h1, h2] at h

/-- C07 refuted: Unmarshal can fail and nevertheless have overwritten fields of the receiver. -/
theorem C07_refuted : ∃ (r r' : CacheEntry) (d : Bytes),
    r.unmarshal d = some (r', some .unexpectedEOF) ∧ r' ≠ r ∧ r'.bits ≠ r.bits :=
  ⟨{}, _, List.replicate 95 1, rfl, by decide, by decide⟩

/-! ### C08 -/

/-- C08 refuted: for *every* entry whose Data has 2^32 bytes or more, encoding succeeds but decoding silently returns
a different (shorter) Data; such entries exist. -/
theorem C08_refuted (e r : CacheEntry) (buf : Bytes) (hdata : 2 ^ 32 ≤ e.data.length) (hbuf : e.size ≤ buf.length) :
    ∃ out n e', e.marshalTo buf = some (out, n, none) ∧ r.unmarshal out = some (e', none) ∧
      e'.data.length = e.data.length % 2 ^ 32 ∧ e' ≠ e := by
  have hlt : e.data.length % 2 ^ 32 < 2 ^ 32 := Nat.mod_lt _ (by decide)
  refine ⟨_, _, { e with data := e.data.take (e.data.length % 2 ^ 32) }, marshalTo_ok e buf hbuf, ?_, by simp; omega, ?_⟩
  · rw [unmarshal_eq, List.append_assoc, announced_header, withHeader_header]
    rw [if_neg (by simp), if_neg (by simp; omega)]
    rw [show List.drop 95 (e.header ++ (e.data ++ buf.drop e.size)) = e.data ++ buf.drop e.size by
      rw [drop_chunk _ _ _ (by simp)]; simp]
    rw [List.take_append_of_le_length (by omega)]
  · intro hc
    have : (e.data.take (e.data.length % 2 ^ 32)).length = e.data.length := by
      have := congrArg (fun x : CacheEntry => x.data.length) hc; exact this
    simp at this; omega

theorem long_entries_exist (N : Nat) : ∃ e : CacheEntry, ∃ buf : Bytes, N ≤ e.data.length ∧ e.size ≤ buf.length :=
  ⟨{ data := List.replicate N 0 }, List.replicate (95 + N) 0, by simp, by simp [size, minsz]⟩

/-- Non-vacuity of C08: entries with 2^32 bytes of Data, and buffers for them, exist. -/
theorem C08_hypotheses_satisfiable : ∃ e : CacheEntry, ∃ buf : Bytes, 2 ^ 32 ≤ e.data.length ∧ e.size ≤ buf.length :=
  long_entries_exist (2 ^ 32)

end Verif

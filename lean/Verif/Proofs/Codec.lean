import Verif.Model.CacheEntry
/-
Helper lemmas for the codec properties.
-/
namespace Verif

@[simp] theorem leBytes_length (n v : Nat) : (leBytes n v).length = n := by
  induction n generalizing v with
  | zero => rfl
  | succ n ih => simp [leBytes, ih]

theorem ofLE_leBytes (n v : Nat) : ofLE (leBytes n v) = v % 256 ^ n := by
  induction n generalizing v with
  | zero => simp [leBytes, ofLE, Nat.mod_one]
  | succ n ih =>
    simp only [leBytes, ofLE, ih, UInt8.toNat_ofNat']
    rw [Nat.pow_succ 256 n, Nat.mul_comm (256 ^ n) 256, Nat.mod_mul]

theorem leBytes_ofLE (bs : Bytes) : leBytes bs.length (ofLE bs) = bs := by
  induction bs with
  | nil => rfl
  | cons b bs ih =>
    simp only [List.length_cons, leBytes, ofLE, List.cons.injEq]
    have hb : b.toNat < 256 := b.toNat_lt
    constructor
    · apply UInt8.toNat_inj.mp; simp
    · rw [show (b.toNat + 256 * ofLE bs) / 256 = ofLE bs by omega]; exact ih

theorem ofLE_lt (bs : Bytes) : ofLE bs < 256 ^ bs.length := by
  induction bs with
  | nil => simp [ofLE]
  | cons b bs ih =>
    simp only [ofLE, List.length_cons, Nat.pow_succ]
    have hb : b.toNat < 256 := b.toNat_lt
    omega

theorem putAt_step (pre buf bs : Bytes) (k off : Nat) (h1 : pre.length = k) (hoff : off = k)
    (h2 : k + bs.length ≤ buf.length) :
    putAt (pre ++ buf.drop k) off bs = some ((pre ++ bs) ++ buf.drop (k + bs.length)) := by
  subst h1; subst hoff
  unfold putAt
  rw [if_pos (by simp; omega)]
  simp [List.drop_append]

namespace CacheEntry

/-- The fixed 95-byte part of an encoding, in order. -/
def header (r : CacheEntry) : Bytes :=
  leBytes 8 r.bits.toNat ++ leBytes 1 r.clientType.toNat ++ leBytes 8 r.clientName64.toNat ++
  leBytes 8 r.clientVersion64.toNat ++ leBytes 8 r.engineName64.toNat ++ leBytes 8 r.engineVersion64.toNat ++
  leBytes 2 r.deviceType.toNat ++ leBytes 8 r.brandName64.toNat ++ leBytes 8 r.modelName64.toNat ++
  leBytes 8 r.osName64.toNat ++ leBytes 8 r.osVersion64.toNat ++ leBytes 8 r.hkey.toNat ++
  leBytes 8 r.timestamp.toUInt64.toNat ++ leBytes 4 (r.data.length % 2 ^ 32)

@[simp] theorem header_length (r : CacheEntry) : r.header.length = 95 := by simp [header]

theorem marshalTo_ok (r : CacheEntry) (buf : Bytes) (h : r.size ≤ buf.length) :
    r.marshalTo buf = some (r.header ++ r.data ++ buf.drop r.size, r.size, none) := by
  have hs : r.size = 95 + r.data.length := rfl
  have h95 : 95 + r.data.length ≤ buf.length := by omega
  unfold marshalTo
  rw [if_neg (by omega)]
  simp only [bind_pure_comp, Option.bind_eq_bind]
  conv => lhs; arg 1; arg 1; rw [show buf = [] ++ buf.drop 0 by simp]
  rw [putAt_step [] buf _ 0 0 rfl rfl (by simp; omega)]
  simp only [Option.bind_some, leBytes_length]
  iterate 12 
    rw [putAt_step _ buf _ _ _ (by simp) (by rfl) (by simp; omega)]
    simp only [Option.bind_some, leBytes_length]
  rw [putAt_step _ buf _ _ _ (by simp) (by rfl) (by simp; omega)]
  simp only [Option.bind_some, leBytes_length]
  rw [if_neg (by simp; omega)]
  rw [show List.take _ r.data = r.data from List.take_of_length_le (by simp; omega)]
  rw [putAt_step _ buf _ _ _ (by simp) (by rfl) (by simp; omega)]
  simp [header, hs]

theorem marshalTo_short (r : CacheEntry) (buf : Bytes) (h : buf.length < r.size) :
    r.marshalTo buf = some (buf, 0, some .shortBuffer) := by
  unfold marshalTo; rw [if_pos h]; rfl

theorem getLE_eq (data : Bytes) (off n : Nat) (h : off + n ≤ data.length) :
    getLE data off n = some (ofLE ((data.drop off).take n)) := by
  unfold getLE slice?
  rw [if_pos (by omega)]; simp

/-- What the header fields of `r` become after reading the 95-byte header in `data`. -/
def withHeader (r : CacheEntry) (data : Bytes) : CacheEntry :=
  { r with
    bits := UInt64.ofNat (ofLE ((data.drop 0).take 8))
    clientType := UInt8.ofNat (ofLE ((data.drop 8).take 1))
    clientName64 := UInt64.ofNat (ofLE ((data.drop 9).take 8))
    clientVersion64 := UInt64.ofNat (ofLE ((data.drop 17).take 8))
    engineName64 := UInt64.ofNat (ofLE ((data.drop 25).take 8))
    engineVersion64 := UInt64.ofNat (ofLE ((data.drop 33).take 8))
    deviceType := UInt16.ofNat (ofLE ((data.drop 41).take 2))
    brandName64 := UInt64.ofNat (ofLE ((data.drop 43).take 8))
    modelName64 := UInt64.ofNat (ofLE ((data.drop 51).take 8))
    osName64 := UInt64.ofNat (ofLE ((data.drop 59).take 8))
    osVersion64 := UInt64.ofNat (ofLE ((data.drop 67).take 8))
    hkey := UInt64.ofNat (ofLE ((data.drop 75).take 8))
    timestamp := (UInt64.ofNat (ofLE ((data.drop 83).take 8))).toInt64 }

/-- The announced payload length. -/
def announced (data : Bytes) : Nat := ofLE ((data.drop 91).take 4)

theorem unmarshal_eq (r : CacheEntry) (data : Bytes) :
    r.unmarshal data =
      some (if data.length < 95 then (r, some .unexpectedEOF)
            else if data.length < 95 + announced data then (r.withHeader data, some .unexpectedEOF)
            else ({ r.withHeader data with data := (data.drop 95).take (announced data) }, none)) := by
  unfold unmarshal
  simp only [show ∀ x : CacheEntry, x.minsz = 95 from fun _ => rfl]
  by_cases h : data.length < 95
  · simp [h]
  · simp only [h, if_false]
    have hg : ∀ off n, off + n ≤ 95 → getLE data off n = some (ofLE ((data.drop off).take n)) :=
      fun off n hn => getLE_eq data off n (by omega)
    simp (config := {zeta := true}) only [hg, Nat.reduceAdd, Nat.reduceLeDiff, Option.bind_eq_bind, Option.bind_some, Option.pure_def]
    by_cases h2 : data.length < 95 + announced data
    · simp only [h2, if_true]
      simp only [announced] at h2
      simp [h2, withHeader]
    · simp only [h2, if_false]
      simp only [announced] at h2
      have h3 : 95 + ofLE (List.take 4 (List.drop 91 data)) ≤ data.length := by omega
      simp [h2, withHeader, slice?, h3, announced]

end CacheEntry
end Verif

namespace Verif
namespace CacheEntry

theorem take_chunk (pre mid post : Bytes) (off n : Nat) (h1 : pre.length = off) (h2 : mid.length = n) :
    ((pre ++ (mid ++ post)).drop off).take n = mid := by
  subst h1; subst h2; simp

theorem u64_le (v : UInt64) : UInt64.ofNat (v.toNat % 256 ^ 8) = v := by
  apply UInt64.toNat_inj.mp
  have := v.toNat_lt
  simp

theorem u16_le (v : UInt16) : UInt16.ofNat (v.toNat % 256 ^ 2) = v := by
  apply UInt16.toNat_inj.mp
  have := v.toNat_lt
  simp

theorem u8_le (v : UInt8) : UInt8.ofNat (v.toNat % 256 ^ 1) = v := by
  apply UInt8.toNat_inj.mp
  have := v.toNat_lt
  simp

theorem announced_header (r : CacheEntry) (rest : Bytes) :
    announced (r.header ++ rest) = r.data.length % 2 ^ 32 := by
  unfold announced header
  rw [List.append_assoc, take_chunk _ _ _ 91 4 (by simp) (by simp), ofLE_leBytes]
  simp

theorem drop_chunk (pre post : Bytes) (k : Nat) (h : pre.length ≤ k) :
    (pre ++ post).drop k = post.drop (k - pre.length) := by
  rw [List.drop_append, List.drop_eq_nil_of_le h, List.nil_append]

theorem take_all (mid post : Bytes) (n : Nat) (h : mid.length = n) : (mid ++ post).take n = mid := by
  subst h; simp

theorem hdr_0 (e : CacheEntry) (rest : Bytes) :
    ((e.header ++ rest).drop 0).take 8 = leBytes 8 e.bits.toNat := by
  simp only [header, List.append_assoc]
  rw [List.drop_zero]
  exact take_all _ _ _ (by simp)

theorem hdr_1 (e : CacheEntry) (rest : Bytes) :
    ((e.header ++ rest).drop 8).take 1 = leBytes 1 e.clientType.toNat := by
  simp only [header, List.append_assoc]
  iterate 1 rw [drop_chunk _ _ _ (by simp)]
  simp only [leBytes_length, Nat.reduceSub, List.drop_zero]
  exact take_all _ _ _ (by simp)

theorem hdr_2 (e : CacheEntry) (rest : Bytes) :
    ((e.header ++ rest).drop 9).take 8 = leBytes 8 e.clientName64.toNat := by
  simp only [header, List.append_assoc]
  iterate 2 rw [drop_chunk _ _ _ (by simp)]
  simp only [leBytes_length, Nat.reduceSub, List.drop_zero]
  exact take_all _ _ _ (by simp)

theorem hdr_3 (e : CacheEntry) (rest : Bytes) :
    ((e.header ++ rest).drop 17).take 8 = leBytes 8 e.clientVersion64.toNat := by
  simp only [header, List.append_assoc]
  iterate 3 rw [drop_chunk _ _ _ (by simp)]
  simp only [leBytes_length, Nat.reduceSub, List.drop_zero]
  exact take_all _ _ _ (by simp)

theorem hdr_4 (e : CacheEntry) (rest : Bytes) :
    ((e.header ++ rest).drop 25).take 8 = leBytes 8 e.engineName64.toNat := by
  simp only [header, List.append_assoc]
  iterate 4 rw [drop_chunk _ _ _ (by simp)]
  simp only [leBytes_length, Nat.reduceSub, List.drop_zero]
  exact take_all _ _ _ (by simp)

theorem hdr_5 (e : CacheEntry) (rest : Bytes) :
    ((e.header ++ rest).drop 33).take 8 = leBytes 8 e.engineVersion64.toNat := by
  simp only [header, List.append_assoc]
  iterate 5 rw [drop_chunk _ _ _ (by simp)]
  simp only [leBytes_length, Nat.reduceSub, List.drop_zero]
  exact take_all _ _ _ (by simp)

theorem hdr_6 (e : CacheEntry) (rest : Bytes) :
    ((e.header ++ rest).drop 41).take 2 = leBytes 2 e.deviceType.toNat := by
  simp only [header, List.append_assoc]
  iterate 6 rw [drop_chunk _ _ _ (by simp)]
  simp only [leBytes_length, Nat.reduceSub, List.drop_zero]
  exact take_all _ _ _ (by simp)

theorem hdr_7 (e : CacheEntry) (rest : Bytes) :
    ((e.header ++ rest).drop 43).take 8 = leBytes 8 e.brandName64.toNat := by
  simp only [header, List.append_assoc]
  iterate 7 rw [drop_chunk _ _ _ (by simp)]
  simp only [leBytes_length, Nat.reduceSub, List.drop_zero]
  exact take_all _ _ _ (by simp)

theorem hdr_8 (e : CacheEntry) (rest : Bytes) :
    ((e.header ++ rest).drop 51).take 8 = leBytes 8 e.modelName64.toNat := by
  simp only [header, List.append_assoc]
  iterate 8 rw [drop_chunk _ _ _ (by simp)]
  simp only [leBytes_length, Nat.reduceSub, List.drop_zero]
  exact take_all _ _ _ (by simp)

theorem hdr_9 (e : CacheEntry) (rest : Bytes) :
    ((e.header ++ rest).drop 59).take 8 = leBytes 8 e.osName64.toNat := by
  simp only [header, List.append_assoc]
  iterate 9 rw [drop_chunk _ _ _ (by simp)]
  simp only [leBytes_length, Nat.reduceSub, List.drop_zero]
  exact take_all _ _ _ (by simp)

theorem hdr_10 (e : CacheEntry) (rest : Bytes) :
    ((e.header ++ rest).drop 67).take 8 = leBytes 8 e.osVersion64.toNat := by
  simp only [header, List.append_assoc]
  iterate 10 rw [drop_chunk _ _ _ (by simp)]
  simp only [leBytes_length, Nat.reduceSub, List.drop_zero]
  exact take_all _ _ _ (by simp)

theorem hdr_11 (e : CacheEntry) (rest : Bytes) :
    ((e.header ++ rest).drop 75).take 8 = leBytes 8 e.hkey.toNat := by
  simp only [header, List.append_assoc]
  iterate 11 rw [drop_chunk _ _ _ (by simp)]
  simp only [leBytes_length, Nat.reduceSub, List.drop_zero]
  exact take_all _ _ _ (by simp)

theorem hdr_12 (e : CacheEntry) (rest : Bytes) :
    ((e.header ++ rest).drop 83).take 8 = leBytes 8 e.timestamp.toUInt64.toNat := by
  simp only [header, List.append_assoc]
  iterate 12 rw [drop_chunk _ _ _ (by simp)]
  simp only [leBytes_length, Nat.reduceSub, List.drop_zero]
  exact take_all _ _ _ (by simp)

theorem withHeader_header (r e : CacheEntry) (rest : Bytes) :
    r.withHeader (e.header ++ rest) = { e with data := r.data } := by
  simp only [withHeader, hdr_0, hdr_1, hdr_2, hdr_3, hdr_4, hdr_5, hdr_6, hdr_7, hdr_8, hdr_9, hdr_10, hdr_11, hdr_12, ofLE_leBytes, u64_le, u16_le, u8_le, Int64.toInt64_toUInt64]

end CacheEntry
end Verif

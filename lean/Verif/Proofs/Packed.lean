import Verif.Data.Shipped
import Verif.Spec.WF
import Verif.Spec.Regexps
/-
Checks on packed tables that the kernel can run, and what they mean.
-/
namespace Verif.Data

theorem unpack_length (n x : Nat) : (unpack n x).length = n := by
  induction n generalizing x with
  | zero => rfl
  | succ n ih => simp [unpack, ih]

theorem unpack_get (n x i : Nat) (h : i < n) : (unpack n x)[i]? = some (UInt8.ofNat ((x >>> (8 * i)) % 256)) := by
  induction n generalizing x i with
  | zero => omega
  | succ n ih =>
    cases i with
    | zero => simp [unpack]
    | succ i =>
      simp only [unpack, List.getElem?_cons_succ]
      rw [ih _ _ (by omega)]
      congr 3
      rw [Nat.shiftRight_eq_div_pow, Nat.shiftRight_eq_div_pow, Nat.div_div_eq_div_mul, Nat.mul_add, Nat.pow_add, Nat.mul_comm]

/-- Length of a buffer, from the lengths of its chunks. -/
def bufLen : List Chunk → Nat
  | [] => 0
  | c :: cs => c.n + bufLen cs

theorem buf_length (cs : List Chunk) : (buf cs).length = bufLen cs := by
  induction cs with
  | nil => rfl
  | cons c cs ih =>
    have h : buf (c :: cs) = c.bytes ++ buf cs := rfl
    rw [h, List.length_append, ih, Chunk.bytes, unpack_length, bufLen]

/-- Byte `i` of a buffer. -/
def byteAt : List Chunk → Nat → Option Nat
  | [], _ => none
  | c :: cs, i => bif Nat.blt i c.n then some ((c.x >>> (8 * i)) % 256) else byteAt cs (i - c.n)

theorem byteAt_eq (cs : List Chunk) (i : Nat) : byteAt cs i = (buf cs)[i]?.map UInt8.toNat := by
  induction cs generalizing i with
  | nil => rfl
  | cons c cs ih =>
    have h : buf (c :: cs) = c.bytes ++ buf cs := rfl
    rw [h, byteAt]
    by_cases hi : i < c.n
    · rw [List.getElem?_append_left (by rw [Chunk.bytes, unpack_length]; exact hi), Chunk.bytes, unpack_get _ _ _ hi]
      have : Nat.blt i c.n = true := by simp [Nat.blt]; omega
      rw [this]; simp
    · rw [List.getElem?_append_right (by rw [Chunk.bytes, unpack_length]; omega), Chunk.bytes, unpack_length, ← ih]
      have : Nat.blt i c.n = false := by
        cases hb : Nat.blt i c.n with
        | false => rfl
        | true => simp [Nat.blt] at hb; omega
      rw [this]; rfl

theorem blt_lt {a b : Nat} (h : Nat.blt a b = true) : a < b := Nat.le_of_ble_eq_true h

/-- The offsets are in range of a buffer of this length. -/
def inBufB (len : Nat) (e : Entry64) : Bool := Nat.ble (e.toNat / 4294967296) (e.toNat % 4294967296) && Nat.ble (e.toNat % 4294967296) len

theorem inBuf_of {cs : List Chunk} {n : Nat} (hn : bufLen cs = n) {e : Entry64} (h : inBufB n e = true) : InBuf (buf cs) e := by
  simp only [inBufB, Bool.and_eq_true] at h
  have h1 := Nat.le_of_ble_eq_true h.1
  have h2 := Nat.le_of_ble_eq_true h.2
  rw [← hn, ← buf_length] at h2
  refine ⟨((buf cs).drop (e.toNat / 4294967296)).take (e.toNat % 4294967296 - e.toNat / 4294967296), (buf cs).take (e.toNat / 4294967296),
    (buf cs).drop (e.toNat % 4294967296), ?_, ?_, ?_⟩
  · have : (buf cs).drop (e.toNat % 4294967296) = ((buf cs).drop (e.toNat / 4294967296)).drop (e.toNat % 4294967296 - e.toNat / 4294967296) := by
      rw [List.drop_drop]; congr 1; omega
    rw [List.append_assoc, this, List.take_append_drop, List.take_append_drop]
  · rw [List.length_take]; omega
  · rw [List.length_take, List.length_take, List.length_drop]; omega

/-- Digit `i` in base 16. -/
def digit (x i : Nat) : Nat := (x >>> (4 * i)) % 16

/-- A list of digits as one number. -/
def pack : List Nat → Nat
  | [] => 0
  | d :: ds => d % 16 + pack ds * 16

theorem digit_pack (l : List Nat) {i d : Nat} (h : l[i]? = some d) : digit (pack l) i = d % 16 := by
  induction l generalizing i with
  | nil => simp at h
  | cons a l ih =>
    cases i with
    | zero =>
      simp only [List.getElem?_cons_zero, Option.some.injEq] at h
      simp only [digit, pack, h, Nat.mul_zero, Nat.shiftRight_zero]; omega
    | succ i =>
      simp only [List.getElem?_cons_succ] at h
      rw [← ih h, digit, digit, pack, Nat.mul_add, Nat.add_comm (4 * i), Nat.shiftRight_add, Nat.shiftRight_eq_div_pow _ (4 * 1)]
      congr 2
      omega

/-- The numbers are the group counts of the patterns. -/
def groupsB : List (List Chunk) → List Nat → Bool
  | [], [] => true
  | c :: cs, d :: ds => Nat.beq (Regexp.groups (buf c)) d && Nat.blt d 16 && groupsB cs ds
  | _, _ => false

theorem groupsB_spec {cs : List (List Chunk)} {ds : List Nat} (h : groupsB cs ds = true) {i : Nat} {c : List Chunk} (hc : cs[i]? = some c) :
    Regexp.groups (buf c) = digit (pack ds) i := by
  have key : ∃ d, ds[i]? = some d ∧ Regexp.groups (buf c) = d ∧ d < 16 := by
    induction cs generalizing ds i with
    | nil => simp at hc
    | cons c' cs ih =>
      cases ds with
      | nil => simp [groupsB] at h
      | cons d ds =>
        simp only [groupsB, Bool.and_eq_true] at h
        cases i with
        | zero =>
          simp only [List.getElem?_cons_zero, Option.some.injEq] at hc
          subst hc
          exact ⟨d, rfl, Nat.eq_of_beq_eq_true h.1.1, blt_lt h.1.2⟩
        | succ i => exact ih h.2 hc
  obtain ⟨d, h1, h2, h3⟩ := key
  rw [digit_pack ds h1, h2, Nat.mod_eq_of_lt h3]

theorem groupsB_append {cs cs' : List (List Chunk)} {ds ds' : List Nat} (h : groupsB cs ds = true) (h' : groupsB cs' ds' = true) :
    groupsB (cs ++ cs') (ds ++ ds') = true := by
  induction cs generalizing ds with
  | nil =>
    cases ds with
    | nil => exact h'
    | cons => simp [groupsB] at h
  | cons c cs ih =>
    cases ds with
    | nil => simp [groupsB] at h
    | cons d ds =>
      simp only [groupsB, Bool.and_eq_true, List.cons_append] at h ⊢
      exact ⟨h.1, ih h.2⟩

/-- -1 or an existing group. -/
def groupB (n : Nat) (i : Int8) : Bool :=
  match i.toInt with
  | .ofNat k => Nat.ble k n && Nat.ble k 62
  | .negSucc k => Nat.beq k 0

theorem groupB_spec {re : Re} {i : Int8} (h : groupB re.ncap i = true) : GroupIx re i := by
  unfold groupB at h
  split at h
  · rename_i k hk
    simp only [Bool.and_eq_true] at h
    have h1 := Nat.le_of_ble_eq_true h.1
    have h2 := Nat.le_of_ble_eq_true h.2
    right
    rw [hk]
    refine ⟨Int.natCast_nonneg k, ?_, ?_⟩
    · exact Int.ofNat_le.mpr h1
    · exact Int.ofNat_le.mpr h2
  · rename_i k hk
    have h := Nat.eq_of_beq_eq_true h
    left
    subst h
    exact Int8.toInt_inj.mp (by rw [hk]; rfl)

theorem ofNat_of_nonneg {i : Int} (h : 0 ≤ i) : i = .ofNat i.toNat := (Int.toNat_of_nonneg h).symm

end Verif.Data

import Verif.Model.Regexp
/-
What regular expressions mean, independently of how the model of Go's `regexp` package searches for them: UTF-8, the language of an expression,
and which of several matches is the preferred one.
-/
namespace Verif.Regexp

/-- Unicode scalar values. -/
def Scalar (r : Nat) : Prop := r < 0xD800 ∨ (0xE000 ≤ r ∧ r < 0x110000)

/-- The UTF-8 encoding of a rune. -/
def utf8 (r : Nat) : Bytes :=
  if r < 0x80 then [UInt8.ofNat r]
  else if r < 0x800 then [UInt8.ofNat (0xC0 + r / 64), UInt8.ofNat (0x80 + r % 64)]
  else if r < 0x10000 then [UInt8.ofNat (0xE0 + r / 4096), UInt8.ofNat (0x80 + r / 64 % 64), UInt8.ofNat (0x80 + r % 64)]
  else [UInt8.ofNat (0xF0 + r / 262144), UInt8.ofNat (0x80 + r / 4096 % 64), UInt8.ofNat (0x80 + r / 64 % 64), UInt8.ofNat (0x80 + r % 64)]

/-- At offset `i` the text has the rune `r`, `w` bytes wide. A byte with which no encoding starts counts as U+FFFD. -/
def RuneAt (b : Bytes) (i r w : Nat) : Prop :=
  i < b.length ∧ ((Scalar r ∧ utf8 r <+: b.drop i ∧ w = (utf8 r).length) ∨ ((∀ s, Scalar s → ¬ utf8 s <+: b.drop i) ∧ r = 0xFFFD ∧ w = 1))

/-- Offsets at which a rune starts, and the end of the text. -/
inductive Boundary (b : Bytes) : Nat → Prop
  | zero : Boundary b 0
  | next {i r w : Nat} : Boundary b i → RuneAt b i r w → Boundary b (i + w)

/-- The rune is in one of the ranges; up to case if `fold`. -/
def InRanges (fold : Bool) (ranges : List (Nat × Nat)) (r : Nat) : Prop :=
  ∃ x, (x = r ∨ fold = true ∧ x ∈ folds r) ∧ ∃ lo hi, (lo, hi) ∈ ranges ∧ lo ≤ x ∧ x ≤ hi

/-- The text between two offsets belongs to the language of the expression. -/
inductive Lang (b : Bytes) : Rx → Nat → Nat → Prop
  | empty {i : Nat} : Lang b .empty i i
  | cls {fold neg : Bool} {ranges : List (Nat × Nat)} {i r w : Nat} : RuneAt b i r w → (InRanges fold ranges r ↔ neg = false) →
    Lang b (.cls fold neg ranges) i (i + w)
  | bot : Lang b .bot 0 0
  | eot : Lang b .eot b.length b.length
  | cat {x y : Rx} {i j k : Nat} : Lang b x i j → Lang b y j k → Lang b (.cat x y) i k
  | altL {x y : Rx} {i j : Nat} : Lang b x i j → Lang b (.alt x y) i j
  | altR {x y : Rx} {i j : Nat} : Lang b y i j → Lang b (.alt x y) i j
  | stop {g : Bool} {x : Rx} {i : Nat} : Lang b (.star g x) i i
  | more {g : Bool} {x : Rx} {i j k : Nat} : Lang b x i j → Lang b (.star g x) j k → Lang b (.star g x) i k
  | cap {n : Nat} {x : Rx} {i j : Nat} : Lang b x i j → Lang b (.cap n x) i j

/-- A way to match the text between two offsets: the groups captured (latest first) and the choices made, `false` for the one Perl tries first:
the left alternative, another round of a greedy repetition, the end of a lazy one. Rounds that consume nothing are not made. -/
inductive Way (b : Bytes) : Rx → Nat → Nat → Caps → List Bool → Prop
  | empty {i : Nat} : Way b .empty i i [] []
  | cls {fold neg : Bool} {ranges : List (Nat × Nat)} {i r w : Nat} : RuneAt b i r w → (InRanges fold ranges r ↔ neg = false) →
    Way b (.cls fold neg ranges) i (i + w) [] []
  | bot : Way b .bot 0 0 [] []
  | eot : Way b .eot b.length b.length [] []
  | cat {x y : Rx} {i j k : Nat} {c d : Caps} {p q : List Bool} : Way b x i j c p → Way b y j k d q → Way b (.cat x y) i k (d ++ c) (p ++ q)
  | altL {x y : Rx} {i j : Nat} {c : Caps} {p : List Bool} : Way b x i j c p → Way b (.alt x y) i j c (false :: p)
  | altR {x y : Rx} {i j : Nat} {c : Caps} {p : List Bool} : Way b y i j c p → Way b (.alt x y) i j c (true :: p)
  | stop {g : Bool} {x : Rx} {i : Nat} : Way b (.star g x) i i [] [g]
  | more {g : Bool} {x : Rx} {i j k : Nat} {c d : Caps} {p q : List Bool} : Way b x i j c p → j ≠ i → Way b (.star g x) j k d q →
    Way b (.star g x) i k (d ++ c) ((!g) :: p ++ q)
  | cap {n : Nat} {x : Rx} {i j : Nat} {c : Caps} {p : List Bool} : Way b x i j c p → Way b (.cap n x) i j ((n, i, j) :: c) p

/-- `x` is the inside of a group `n` of the expression. -/
inductive Rx.Group (n : Nat) (x : Rx) : Rx → Prop
  | here : Rx.Group n x (.cap n x)
  | catL {y z : Rx} : Rx.Group n x y → Rx.Group n x (.cat y z)
  | catR {y z : Rx} : Rx.Group n x z → Rx.Group n x (.cat y z)
  | altL {y z : Rx} : Rx.Group n x y → Rx.Group n x (.alt y z)
  | altR {y z : Rx} : Rx.Group n x z → Rx.Group n x (.alt y z)
  | star {g : Bool} {y : Rx} : Rx.Group n x y → Rx.Group n x (.star g y)
  | cap {m : Nat} {y : Rx} : Rx.Group n x y → Rx.Group n x (.cap m y)

/-- The first difference between two sequences of choices is that the one takes what Perl tries first and the other does not. -/
def Preferred (p q : List Bool) : Prop := ∃ s t u, p = s ++ false :: t ∧ q = s ++ true :: u

/-- The text between two offsets spells the characters, in any case. -/
inductive Spells (b : Bytes) : List Nat → Nat → Nat → Prop
  | nil {i : Nat} : Spells b [] i i
  | cons {c : Nat} {l : List Nat} {i r w j : Nat} : RuneAt b i r w → c ∈ folds r → Spells b l (i + w) j → Spells b (c :: l) i j

/-- An ASCII letter, a digit or `-`; the long s and the Kelvin sign count as `s` and `k`. -/
def WordRune (r : Nat) : Prop := r = 45 ∨ (48 ≤ r ∧ r ≤ 57) ∨ (65 ≤ r ∧ r ≤ 90) ∨ (97 ≤ r ∧ r ≤ 122) ∨ r = 0x17F ∨ r = 0x212A

/-- A word may start at offset `i`: at the start of the text, after a rune that is neither a word rune nor `_`, after `_` that itself follows
something other than a word rune, or after the prefixes `sprd-` and `MZ-`. -/
def WordStart (b : Bytes) (i : Nat) : Prop :=
  i = 0 ∨
  (∃ k r w, Boundary b k ∧ RuneAt b k r w ∧ ¬ WordRune r ∧ r ≠ 95 ∧ k + w = i) ∨
  (∃ k r w, Boundary b k ∧ RuneAt b k r w ∧ ¬ WordRune r ∧ b[k + w]? = some 95 ∧ k + w + 1 = i) ∨
  (∃ k, Boundary b k ∧ (Spells b ((ascii "sprd-").map UInt8.toNat) k i ∨ Spells b ((ascii "MZ-").map UInt8.toNat) k i))

/-- ASCII text without characters that are special in patterns. -/
def PlainText (n : Bytes) : Prop := ∀ c ∈ n, c.toNat < 0x80 ∧ c ∉ ascii "$()*+.?[\\^{|"

/-- At least three bytes, a digit first and last, no newline. -/
def NumberLike (s : Bytes) : Prop :=
  3 ≤ s.length ∧ (∃ c, s.head? = some c ∧ 48 ≤ c.toNat ∧ c.toNat ≤ 57) ∧ (∃ c, s.getLast? = some c ∧ 48 ≤ c.toNat ∧ c.toNat ≤ 57) ∧ 10 ∉ s

/-- Digits and dots, at least one. -/
def DigitsAndDots (s : Bytes) : Prop := s ≠ [] ∧ ∀ c ∈ s, c = 46 ∨ (48 ≤ c.toNat ∧ c.toNat ≤ 57)

end Verif.Regexp

import Verif.Model.Base
/-
Which texts are versions, stated without reference to the code.
-/
namespace Verif

/-- `d` is one or more decimal digits with value `n`. -/
inductive Dec : Bytes → Nat → Prop where
  | one {k : Nat} (h : k < 10) : Dec [UInt8.ofNat (48 + k)] k
  | more {d : Bytes} {n k : Nat} (hd : Dec d n) (h : k < 10) : Dec (d ++ [UInt8.ofNat (48 + k)]) (10 * n + k)

/-- `s` is a decimal number in the range of 64-bit integers, with or without a sign. -/
inductive Numeral : Bytes → Int → Prop where
  | bare {d : Bytes} {n : Nat} (hd : Dec d n) (h : n < 2 ^ 63) : Numeral d n
  | plus {d : Bytes} {n : Nat} (hd : Dec d n) (h : n < 2 ^ 63) : Numeral (ascii "+" ++ d) n
  | minus {d : Bytes} {n : Nat} (hd : Dec d n) (h : n ≤ 2 ^ 63) : Numeral (ascii "-" ++ d) (-n)

/-- At most `n` numbers, with dots between them and perhaps after the last; after the dot of the `n`-th number there can be any text, `t`. -/
inductive Dotted : Nat → Bytes → List Int → Bytes → Prop where
  | nothing {n : Nat} : Dotted n [] [] []
  | last {n : Nat} {d : Bytes} {x : Int} (hd : Numeral d x) : Dotted (n + 1) d [x] []
  | next {n : Nat} {d r t : Bytes} {x : Int} {xs : List Int} (hd : Numeral d x) (hr : Dotted n r xs t) : Dotted (n + 1) (d ++ ascii "." ++ r) (x :: xs) t
  | rest {t : Bytes} : Dotted 0 t [] t

/-- `x` is the part of `t` after the first space or dash, or nothing if there is none. -/
inductive AfterMark : Bytes → Bytes → Prop where
  | without {t : Bytes} (h1 : (32 : UInt8) ∉ t) (h2 : (45 : UInt8) ∉ t) : AfterMark t []
  | after {a x : Bytes} {c : UInt8} (h1 : (32 : UInt8) ∉ a) (h2 : (45 : UInt8) ∉ a) (hc : c = 32 ∨ c = 45) : AfterMark (a ++ c :: x) x

end Verif

import Verif.Model.CliFlags
import Verif.Model.Single
import Verif.Model.Batch
/-
What the command line of the comparison tool is supposed to mean, for C90.
-/
namespace Verif.Cli

open Tool (FS put)

/-- How a flag is called. -/
def Flag.name : Flag → Bytes
  | .ua => ascii "ua"
  | .file => ascii "file"
  | .url => ascii "url"
  | .out => ascii "out"
  | .threads => ascii "threads"
  | .format => ascii "format"
  | .verbose => ascii "verbose"

/-- The arguments `as` spell the settings `ss`, in this order: `-flag value` or `-flag=value`, with one or two dashes, or `-verbose` alone. Settings end where
the arguments end, at `--` and at the first argument that is no flag. -/
inductive Spelled : List (Flag × Bytes) → List Bytes → Prop where
  | done : Spelled [] []
  | stop {rest} : Spelled [] (ascii "--" :: rest)
  | operand {a rest} (h : a = ascii "-" ∨ a.head? ≠ some 45) : Spelled [] (a :: rest)
  | next {d f v ss as} (hd : d ∈ ["-", "--"]) (hf : f ≠ .verbose) (h : Spelled ss as) : Spelled ((f, v) :: ss) ((ascii d ++ f.name) :: v :: as)
  | eq {d f v ss as} (hd : d ∈ ["-", "--"]) (h : Spelled ss as) : Spelled ((f, v) :: ss) ((ascii d ++ f.name ++ 61 :: v) :: as)
  | verbose {d ss as} (hd : d ∈ ["-", "--"]) (h : Spelled ss as) : Spelled ((.verbose, ascii "true") :: ss) ((ascii d ++ Flag.verbose.name) :: as)

/-- The last value given for a flag. -/
def last (f : Flag) (ss : List (Flag × Bytes)) : Option Bytes := ((ss.filter fun x => x.1 = f).getLast?).map (·.2)

/-- The digit `c` stands for `d`: a decimal digit, or a letter of either case. -/
def DigitOf (c : UInt8) (d : Nat) : Prop := d < 10 ∧ c = UInt8.ofNat (48 + d) ∨ 10 ≤ d ∧ d < 36 ∧ (c = UInt8.ofNat (87 + d) ∨ c = UInt8.ofNat (55 + d))

/-- Digits below `base`, at least one; an underscore may stand between two of them. -/
inductive Digits (base : Nat) : Bytes → List Nat → Prop where
  | one {c d} (h : DigitOf c d) (hb : d < base) : Digits base [c] [d]
  | next {c d s ds} (h : DigitOf c d) (hb : d < base) (hs : Digits base s ds) : Digits base (c :: s) (d :: ds)
  | under {c d s ds} (h : DigitOf c d) (hb : d < base) (hs : Digits base s ds) : Digits base (c :: 95 :: s) (d :: ds)

/-- The number the digits mean. -/
def valueOf (base : Nat) (ds : List Nat) : Nat := ds.foldl (fun n d => n * base + d) 0

/-- Integer literals as in Go programs (The Go Programming Language Specification, Integer literals). -/
inductive Literal : Bytes → Nat → Prop where
  | zero : Literal (ascii "0") 0
  | decimal {s ds} (h : Digits 10 s ds) (h0 : s.head? ≠ some 48) : Literal s (valueOf 10 ds)
  | octal {p s ds} (hp : p ∈ ["0", "0_", "0o", "0O", "0o_", "0O_"]) (h : Digits 8 s ds) : Literal (ascii p ++ s) (valueOf 8 ds)
  | binary {p s ds} (hp : p ∈ ["0b", "0B", "0b_", "0B_"]) (h : Digits 2 s ds) : Literal (ascii p ++ s) (valueOf 2 ds)
  | hex {p s ds} (hp : p ∈ ["0x", "0X", "0x_", "0X_"]) (h : Digits 16 s ds) : Literal (ascii p ++ s) (valueOf 16 ds)

/-- Integer literals with or without a sign that fit into 64 bits. -/
inductive Number : Bytes → Int → Prop where
  | bare {s n} (h : Literal s n) (hn : n < 2 ^ 63) : Number s n
  | plus {s n} (h : Literal s n) (hn : n < 2 ^ 63) : Number (43 :: s) n
  | minus {s n} (h : Literal s n) (hn : n ≤ 2 ^ 63) : Number (45 :: s) (-(n : Int))

/-- The words for truth values. -/
def Boolean (s : Bytes) (b : Bool) : Prop :=
  b = true ∧ s ∈ ["1", "t", "T", "true", "TRUE", "True"].map ascii ∨ b = false ∧ s ∈ ["0", "f", "F", "false", "FALSE", "False"].map ascii

/-- Numbers are numbers and truth values are truth values. -/
def Valid (ss : List (Flag × Bytes)) : Prop := ∀ x ∈ ss, (x.1 = .threads → ∃ i, Number x.2 i) ∧ (x.1 = .verbose → ∃ b, Boolean x.2 b)

/-- The options are the last values given, or else the documented defaults. -/
structure Obeys (ss : List (Flag × Bytes)) (o : Opts) : Prop where
  ua : o.ua = (last .ua ss).getD []
  file : o.file = (last .file ss).getD []
  url : o.url = (last .url ss).getD []
  out : o.out = (last .out ss).getD (ascii "out.diff.txt")
  format : o.format = (last .format ss).getD (ascii "plain")
  threads : Number ((last .threads ss).getD (ascii "1")) o.threads
  verbose : Boolean ((last .verbose ss).getD (ascii "false")) o.verbose

/-- A complete run of the program that ends with status 0 after its work: the arguments, the files before and after. -/
inductive Ran (T : Tables) (H : Bytes → UInt64) (lower : Bytes → Bytes) (e : Around) (fs : FS) (args : List Bytes) : FS → Prop where
  | show {u out fs1 s} (h : invoke e fs args = (.show u out, fs1)) (hr : Single.Reach T H u s) (hf : s.Returned) : Ran T H lower e fs args (put fs1 out s.out)
  | compare {rows n out fs1 s} (h : invoke e fs args = (.compare rows n out, fs1)) (hr : Batch.Reach T H lower rows n s) (hf : s.cli.Returned) :
      Ran T H lower e fs args (put fs1 out s.cli.out.flatten)

end Verif.Cli

import Verif.Model.Tables
/-
Model of the part of Go's `regexp` package that the shipped rule tables use (external library): RE2 syntax, leftmost-first matching on the
runes of the text, submatches as byte offsets. Not modelled: word boundaries, named groups, flags other than a leading `(?i)`, Unicode
classes, and case folding outside the ranges of `folds`; none of the shipped patterns needs them.
-/
namespace Verif.Regexp

/-- Regular expressions. `x?` is `alt x empty`, `x+` is `cat x (star x)`, counted repetitions are unfolded. -/
inductive Rx where
  | empty
  /-- One rune in (or, if `neg`, outside) the ranges; `fold`: up to case. -/
  | cls (fold neg : Bool) (ranges : List (Nat × Nat))
  /-- `^` -/
  | bot
  /-- `$` -/
  | eot
  | cat (a b : Rx)
  | alt (a b : Rx)
  | star (greedy : Bool) (a : Rx)
  | cap (i : Nat) (a : Rx)
deriving DecidableEq, Repr

/-! ### Runes -/

/-- A UTF-8 continuation byte. -/
def isCont (b : UInt8) : Bool := 0x80 ≤ b.toNat && b.toNat ≤ 0xBF

/-- `utf8.DecodeRune`: rune and width; an invalid byte is U+FFFD of width 1. -/
def decodeRune : Bytes → Nat × Nat
  | [] => (0xFFFD, 0)
  | a :: rest =>
    let x := a.toNat
    if x < 0x80 then (x, 1)
    else if 0xC2 ≤ x && x ≤ 0xDF then
      match rest with
      | b :: _ => if isCont b then ((x - 0xC0) * 64 + (b.toNat - 0x80), 2) else (0xFFFD, 1)
      | _ => (0xFFFD, 1)
    else if 0xE0 ≤ x && x ≤ 0xEF then
      match rest with
      | b :: c :: _ =>
        if isCont b && isCont c && !(x == 0xE0 && b.toNat < 0xA0) && !(x == 0xED && 0xA0 ≤ b.toNat) then
          ((x - 0xE0) * 4096 + (b.toNat - 0x80) * 64 + (c.toNat - 0x80), 3)
        else (0xFFFD, 1)
      | _ => (0xFFFD, 1)
    else if 0xF0 ≤ x && x ≤ 0xF4 then
      match rest with
      | b :: c :: d :: _ =>
        if isCont b && isCont c && isCont d && !(x == 0xF0 && b.toNat < 0x90) && !(x == 0xF4 && 0x90 ≤ b.toNat) then
          ((x - 0xF0) * 262144 + (b.toNat - 0x80) * 4096 + (c.toNat - 0x80) * 64 + (d.toNat - 0x80), 4)
        else (0xFFFD, 1)
      | _ => (0xFFFD, 1)
    else (0xFFFD, 1)

/-- The runes of a text; `fuel` at least its length. -/
def runes : Nat → Bytes → List Nat
  | 0, _ => []
  | _ + 1, [] => []
  | fuel + 1, b =>
    let (r, w) := decodeRune b
    r :: runes fuel (b.drop w)

/-- A rune with its case variants (`unicode.SimpleFold`). Simplification: ASCII with the Kelvin sign and the long s, Latin-1, basic Cyrillic
and the Roman numerals only. -/
def folds (r : Nat) : List Nat :=
  if r < 65 then [r]
  else if r ≤ 90 then (if r = 75 then [75, 107, 0x212A] else if r = 83 then [83, 115, 0x17F] else [r, r + 32])
  else if r < 97 then [r]
  else if r ≤ 122 then (if r = 107 then [107, 75, 0x212A] else if r = 115 then [115, 83, 0x17F] else [r, r - 32])
  else if r < 0xC0 then [r]
  else if r ≤ 0xDE then (if r = 0xD7 then [r] else [r, r + 32])
  else if 0xE0 ≤ r ∧ r ≤ 0xFE then (if r = 0xF7 then [r] else [r, r - 32])
  else if r = 0x17F then [0x17F, 83, 115]
  else if r = 0x212A then [0x212A, 75, 107]
  else if 0x400 ≤ r ∧ r ≤ 0x40F then [r, r + 80]
  else if 0x410 ≤ r ∧ r ≤ 0x42F then [r, r + 32]
  else if 0x430 ≤ r ∧ r ≤ 0x44F then [r, r - 32]
  else if 0x450 ≤ r ∧ r ≤ 0x45F then [r, r - 80]
  else if 0x2160 ≤ r ∧ r ≤ 0x216F then [r, r + 16]
  else if 0x2170 ≤ r ∧ r ≤ 0x217F then [r, r - 16]
  else [r]

def inRanges (r : Nat) : List (Nat × Nat) → Bool
  | [] => false
  | (lo, hi) :: l => (Nat.ble lo r && Nat.ble r hi) || inRanges r l

def inClass (fold neg : Bool) (ranges : List (Nat × Nat)) (r : Nat) : Bool :=
  (if fold then (folds r).any fun x => inRanges x ranges else inRanges r ranges) != neg

/-! ### Matching -/

/-- Captured groups so far, latest first: index, start, end. -/
abbrev Caps := List (Nat × Nat × Nat)

/-- What remains to be matched: position, remaining text, captures. -/
abbrev K := Nat → Bytes → Caps → Option Caps

/-- `x*`: as often as possible (or as rarely as possible), each round consuming something. -/
def starLoop (greedy : Bool) (m : K → K) (k : K) : Nat → K
  | 0 => k
  | fuel + 1 => fun pos rest caps =>
    let more := fun (_ : Unit) =>
      m (fun pos' rest' caps' => if pos' = pos then none else starLoop greedy m k fuel pos' rest' caps') pos rest caps
    if greedy then
      match more () with
      | some r => some r
      | none => k pos rest caps
    else
      match k pos rest caps with
      | some r => some r
      | none => more ()

/-- Backtracking in the order of preference that defines leftmost-first matching. -/
def Rx.run : Rx → K → K
  | .empty, k => k
  | .cls fold neg ranges, k => fun pos rest caps =>
    match rest with
    | [] => none
    | a :: l =>
      if a.toNat < 0x80 then (if inClass fold neg ranges a.toNat then k (pos + 1) l caps else none)
      else
        let (r, w) := decodeRune (a :: l)
        if inClass fold neg ranges r then k (pos + w) ((a :: l).drop w) caps else none
  | .bot, k => fun pos rest caps => if pos = 0 then k pos rest caps else none
  | .eot, k => fun pos rest caps => if rest.isEmpty then k pos rest caps else none
  | .cat a b, k => a.run (b.run k)
  | .alt a b, k => fun pos rest caps =>
    match a.run k pos rest caps with
    | some r => some r
    | none => b.run k pos rest caps
  | .star greedy a, k => fun pos rest caps => starLoop greedy a.run k rest.length pos rest caps
  | .cap i a, k => fun pos rest caps => a.run (fun pos' rest' caps' => k pos' rest' ((i, pos, pos') :: caps')) pos rest caps

/-- The first position at which the expression matches; the whole match is group 0. -/
def search (rx : Rx) : Nat → Nat → Bytes → Option Caps
  | 0, pos, rest => (Rx.cap 0 rx).run (fun _ _ caps => some caps) pos rest []
  | fuel + 1, pos, rest =>
    match (Rx.cap 0 rx).run (fun _ _ caps => some caps) pos rest [] with
    | some caps => some caps
    | none =>
      match rest with
      | [] => none
      | _ :: _ =>
        let w := (decodeRune rest).2
        search rx fuel (pos + w) (rest.drop w)

/-- The submatch vector of groups `0..n`. -/
def vector (caps : Caps) : Nat → List Int
  | 0 => group caps 0
  | n + 1 => vector caps n ++ group caps (n + 1)
where
  group (caps : Caps) (i : Nat) : List Int :=
    match caps.lookup i with
    | some (lo, hi) => [(lo : Int), (hi : Int)]
    | none => [-1, -1]

/-! ### Parsing -/

def digits : List (Nat × Nat) := [(48, 57)]
def word : List (Nat × Nat) := [(48, 57), (65, 90), (95, 95), (97, 122)]
def space : List (Nat × Nat) := [(9, 10), (12, 13), (32, 32)]
/-- any rune but newline -/
def dot : List (Nat × Nat) := [(0, 9), (11, 0x10FFFF)]

/-- What a backslash and a rune denote. -/
def escape (r : Nat) : List (Nat × Nat) :=
  if r = 100 then digits else if r = 119 then word else if r = 115 then space
  else if r = 110 then [(10, 10)] else if r = 116 then [(9, 9)] else if r = 114 then [(13, 13)] else [(r, r)]

/-- The inside of a bracket expression up to the closing bracket; `first`: a bracket would be literal. -/
def parseClass : Nat → Bool → List (Nat × Nat) → List Nat → Option (List (Nat × Nat) × List Nat)
  | 0, _, _, _ => none
  | fuel + 1, first, acc, s =>
    match s with
    | [] => none
    | 93 :: rest => if first then parseClass fuel false ((93, 93) :: acc) rest else some (acc, rest)
    | 92 :: r :: rest => parseClass fuel false (escape r ++ acc) rest
    | a :: 45 :: 93 :: rest => some ((45, 45) :: (a, a) :: acc, rest)
    | a :: 45 :: 92 :: b :: rest => parseClass fuel false ((a, b) :: acc) rest
    | a :: 45 :: b :: rest => parseClass fuel false ((a, b) :: acc) rest
    | a :: rest => parseClass fuel false ((a, a) :: acc) rest

/-- A decimal number. -/
def number : List Nat → Option Nat → Option Nat × List Nat
  | [], acc => (acc, [])
  | d :: rest, acc => if Nat.ble 48 d && Nat.ble d 57 then number rest (some (acc.getD 0 * 10 + (d - 48))) else (acc, d :: rest)

/-- `{n}`, `{n,}`, `{n,m}` after the opening brace. -/
def counted (s : List Nat) : Option (Nat × Option Nat × List Nat) :=
  match number s none with
  | (some n, 125 :: rest) => some (n, some n, rest)
  | (some n, 44 :: 125 :: rest) => some (n, none, rest)
  | (some n, 44 :: rest) =>
    match number rest none with
    | (some m, 125 :: rest) => some (n, some m, rest)
    | _ => none
  | _ => none

inductive Tok where
  | atom (x : Rx)
  | opn (capture : Bool)
  | cls
  | bar
  | quant (min : Nat) (max : Option Nat) (greedy : Bool)

/-- A `?` after a quantifier makes it non-greedy. -/
def lazyMark : List Nat → Bool × List Nat
  | 63 :: rest => (false, rest)
  | s => (true, s)

/-- The next token. -/
def token (fold : Bool) (s : List Nat) : Option (Tok × List Nat) :=
  let lit := fun r rest => some (Tok.atom (.cls fold false [(r, r)]), rest)
  match s with
  | [] => none
  | 40 :: 63 :: 58 :: rest => some (.opn false, rest)
  | 40 :: 63 :: _ => none
  | 40 :: rest => some (.opn true, rest)
  | 41 :: rest => some (.cls, rest)
  | 124 :: rest => some (.bar, rest)
  | 94 :: rest => some (.atom .bot, rest)
  | 36 :: rest => some (.atom .eot, rest)
  | 46 :: rest => some (.atom (.cls false false dot), rest)
  | 91 :: 94 :: rest => (parseClass (rest.length + 1) true [] rest).map fun x => (.atom (.cls fold true x.1), x.2)
  | 91 :: rest => (parseClass (rest.length + 1) true [] rest).map fun x => (.atom (.cls fold false x.1), x.2)
  | [92] => none
  | 92 :: r :: rest => some (.atom (.cls fold false (escape r)), rest)
  | 42 :: rest => let g := lazyMark rest; some (.quant 0 none g.1, g.2)
  | 43 :: rest => let g := lazyMark rest; some (.quant 1 none g.1, g.2)
  | 63 :: rest => let g := lazyMark rest; some (.quant 0 (some 1) g.1, g.2)
  | 123 :: rest =>
    match counted rest with
    | some (n, m, rest') => let g := lazyMark rest'; some (.quant n m g.1, g.2)
    | none => lit 123 rest
  | r :: rest => lit r rest

/-- An open group: its number if capturing, the finished alternatives and the current sequence, both in reverse. -/
structure Frame where
  cap : Option Nat
  alts : List Rx
  seq : List Rx

def catAll : List Rx → Rx
  | [] => .empty
  | [x] => x
  | x :: l => .cat x (catAll l)

def altAll : List Rx → Rx
  | [] => .empty
  | [x] => x
  | x :: l => .alt x (altAll l)

def Frame.close (f : Frame) : Rx :=
  let x := altAll (catAll f.seq.reverse :: f.alts).reverse
  match f.cap with
  | some i => .cap i x
  | none => x

def optional (greedy : Bool) (x : Rx) : Rx := if greedy then .alt x .empty else .alt .empty x

/-- `(x(x(x)?)?)?` -/
def upTo (greedy : Bool) (x : Rx) : Nat → Rx
  | 0 => .empty
  | 1 => optional greedy x
  | n + 1 => optional greedy (.cat x (upTo greedy x n))

def repeatRx (x : Rx) (min : Nat) (max : Option Nat) (greedy : Bool) : Rx :=
  let tail := match max with
    | none => [Rx.star greedy x]
    | some m => if m ≤ min then [] else [upTo greedy x (m - min)]
  catAll (List.replicate min x ++ tail)

/-- Reads tokens onto a stack of open groups; `n` groups were opened before. -/
def parseLoop (fold : Bool) : Nat → Nat → Frame → List Frame → List Nat → Option Rx
  | 0, _, _, _, _ => none
  | fuel + 1, n, f, stack, s =>
    if s.isEmpty then (if stack.isEmpty then some f.close else none) else
    match token fold s with
    | none => none
    | some (.atom x, rest) => parseLoop fold fuel n { f with seq := x :: f.seq } stack rest
    | some (.opn true, rest) => parseLoop fold fuel (n + 1) ⟨some (n + 1), [], []⟩ (f :: stack) rest
    | some (.opn false, rest) => parseLoop fold fuel n ⟨none, [], []⟩ (f :: stack) rest
    | some (.cls, rest) =>
      match stack with
      | [] => none
      | g :: stack => parseLoop fold fuel n { g with seq := f.close :: g.seq } stack rest
    | some (.bar, rest) => parseLoop fold fuel n { f with alts := catAll f.seq.reverse :: f.alts, seq := [] } stack rest
    | some (.quant a b g, rest) =>
      match f.seq with
      | [] => none
      | x :: seq => parseLoop fold fuel n { f with seq := repeatRx x a b g :: seq } stack rest

/-- The expression of a pattern; `none` if it is malformed (or outside the modelled syntax). -/
def parse (p : Bytes) : Option Rx :=
  let s := runes p.length p
  match s with
  | 40 :: 63 :: 105 :: 41 :: rest => parseLoop true (rest.length + 1) 0 ⟨none, [], []⟩ [] rest
  | _ => parseLoop false (s.length + 1) 0 ⟨none, [], []⟩ [] s

/-- Reading a pattern for its groups. -/
inductive Scan where
  | plain
  /-- after a backslash -/
  | esc
  /-- after an opening parenthesis -/
  | par
  /-- in brackets -/
  | cls
  /-- in brackets, after a backslash -/
  | clsEsc
  /-- after an opening bracket -/
  | cls0
  /-- after an opening bracket and `^` -/
  | cls1

/-- The next state outside brackets. -/
def scanPlain (c : Nat) : Scan := if Nat.beq c 92 then .esc else if Nat.beq c 40 then .par else if Nat.beq c 91 then .cls0 else .plain

/-- Number of capturing groups: opening parentheses outside brackets, not escaped and not followed by a question mark. -/
def groupCount : Scan → Nat → Bytes → Nat
  | _, n, [] => n
  | .plain, n, c :: l => groupCount (scanPlain c.toNat) n l
  | .esc, n, _ :: l => groupCount .plain n l
  | .par, n, c :: l => if Nat.beq c.toNat 63 then groupCount .plain n l else groupCount (scanPlain c.toNat) (n + 1) l
  | .cls, n, c :: l => groupCount (if Nat.beq c.toNat 93 then .plain else if Nat.beq c.toNat 92 then .clsEsc else .cls) n l
  | .clsEsc, n, _ :: l => groupCount .cls n l
  | .cls0, n, c :: l => groupCount (if Nat.beq c.toNat 94 then .cls1 else if Nat.beq c.toNat 92 then .clsEsc else .cls) n l
  | .cls1, n, c :: l => groupCount (if Nat.beq c.toNat 92 then .clsEsc else .cls) n l

/-- `NumSubexp()` of a pattern. -/
def groups (p : Bytes) : Nat := groupCount .plain 0 p

/-- `regexp.MustCompile`. -/
def compile (p : Bytes) : Re where
  src := p
  ncap := groups p
  find := match parse p with
    | none => fun _ => none
    | some rx => fun b => (search rx b.length 0 b).map fun caps => vector caps (groups p)

end Verif.Regexp

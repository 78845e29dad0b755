import Verif.Model.Compiler
import Verif.Model.Version
/-
The Go source that `cmd/uaxplc` writes (main.go, mod.go and the output part of the five modules), byte for byte as handed to `format.Source`.

Not modelled: `format.Source` (go/format), which changes white space and line breaks only, and rejects text that is not a Go file.
-/
namespace Verif.Compiler

/-! ## Numbers -/

/-- A digit of `%x`. -/
def hexDigit (d : Nat) : UInt8 := if d < 10 then UInt8.ofNat (48 + d) else UInt8.ofNat (87 + d)

/-- `%x` of a number that is not negative (package fmt). -/
def hexNat (n : Nat) : Bytes := if n < 16 then [hexDigit n] else hexNat (n / 16) ++ [hexDigit (n % 16)]

/-- Filled up with zeros to `w` bytes. -/
def padZero (w : Nat) (s : Bytes) : Bytes := List.replicate (w - s.length) 48 ++ s

/-- `fmt.Sprintf("%0<w>x", i)` of a signed number: the sign counts towards the width. -/
def fmtHex (w : Nat) (i : Int) : Bytes := if i < 0 then 45 :: padZero (w - 1) (hexNat i.natAbs) else padZero w (hexNat i.natAbs)

/-- `hex` for int8 (mod.go:16-22). `-i` of the least number is that number. -/
def hex8 (i : Int8) : Bytes := if i < 0 then ascii "-0x" ++ fmtHex 1 (-i).toInt else ascii "0x" ++ fmtHex 1 i.toInt

/-- `hex` for int32 (mod.go:23-29). The model keeps int32 values as integers. -/
def hex32 (i : Int) : Bytes :=
  let x := Int32.ofInt i
  if x < 0 then ascii "-0x" ++ fmtHex 4 (-x).toInt else ascii "0x" ++ fmtHex 4 x.toInt

/-- `hex` for uint64 and Entry64 (mod.go:30-33); also `0x%08x` in mod_client.go:257, 259. -/
def hex64 (x : UInt64) : Bytes := ascii "0x" ++ padZero 8 (hexNat x.toNat)

/-! ## Pieces -/

/-- `name{f1:v1,f2:v2,…}`: the format strings of mod_client.go:156, mod_os.go:132, 141, mod_vendor.go:89, mod_device.go:202, 209, 214, given by
their parts. -/
def sprintTuple (name : String) : List (String × Bytes) → Bytes
  | [] => ascii name ++ ascii "{}"
  | (f, v) :: fs => ascii name ++ ascii "{" ++ ascii f ++ ascii ":" ++ v ++ fs.flatMap (fun x => ascii "," ++ ascii x.1 ++ ascii ":" ++ x.2) ++ ascii "}"

/-- The bytes of a buffer, 16 per line (mod_client.go:220-225 and alike); `i` is the number of the next byte. -/
def emitBuf (i : Nat) : Bytes → Bytes
  | [] => []
  | b :: bs => (if i > 0 ∧ i % 16 = 0 then ascii "\n" else []) ++ ascii "0x" ++ padZero 2 (hexNat b.toNat) ++ ascii ", " ++ emitBuf (i + 1) bs

/-- The declaration of a buffer (mod_client.go:219-226, mod_os.go:168-175, mod_vendor.go:107-114, mod_hint.go:85-92, mod_device.go:245-252). -/
def emitBytes (name : String) (b : Bytes) : Bytes := ascii name ++ ascii " = []byte{\n" ++ emitBuf 0 b ++ ascii "\n}\n"

/-- The declaration of a list of regexps (mod_client.go:170-174, 213-217, mod_os.go:162-166, mod_vendor.go:100-105, mod_device.go:235-243). The
patterns are those including the text put around them. -/
def emitRes (name : String) (ps : List Bytes) : Bytes :=
  ascii name ++ ascii " = []*regexp.Regexp{\n" ++ ps.flatMap (fun p => ascii "regexp.MustCompile(`" ++ p ++ ascii "`),\n") ++ ascii "}\n"

/-- The head of every file (main.go:65-71); `args` are the arguments of the tool. -/
def emitHead (args : List Bytes) : Bytes :=
  ascii "// Code generated by \"uaxplc" ++ args.flatMap (fun a => ascii " " ++ a) ++ ascii "\". DO NOT EDIT.\n\n" ++ ascii "package uaxpl\n\n"

/-- The rows of one input file called `name` (mod_client.go:160-166, mod_device.go:218-224). -/
def emitFile (name : Bytes) (rows : List Bytes) : Bytes :=
  ascii "// " ++ name ++ ascii "\n" ++ ascii "{\n" ++ rows.flatMap (fun r => r ++ ascii ",\n") ++ ascii "},\n"

/-- The declaration of a table with one list of rows per input file (mod_client.go:74, 160-168, mod_device.go:110, 218-226). -/
def emitFiles (name type : String) (files : List (Bytes × List Bytes)) : Bytes :=
  ascii name ++ ascii " = [" ++ natDec files.length ++ ascii "][]" ++ ascii type ++ ascii "{\n" ++
    files.flatMap (fun f => emitFile f.1 f.2) ++ ascii "}\n"

/-- The declaration of a table (mod_client.go:176-181, mod_os.go:148-160, mod_vendor.go:93-98, mod_device.go:228-233). -/
def emitTable (name type : String) (rows : List Bytes) : Bytes :=
  ascii name ++ ascii " = []" ++ ascii type ++ ascii "{\n" ++ rows.flatMap (fun r => r ++ ascii ",\n") ++ ascii "}\n"

/-! ## The modules -/

/-- A row of a client table together with its columns `url64` and `type64`, which `ClientTuple` leaves out. -/
abbrev ClientRow := ClientTuple × Entry64 × Entry64

/-- mod_client.go:156-157. -/
def emitClientRow (w : ClientRow) : Bytes :=
  sprintTuple "clientTuple" [("matchRI", hex32 w.1.matchRI), ("match64", hex64 w.1.match64), ("browser64", hex64 w.1.browser64),
    ("version64", hex64 w.1.version64), ("browserVI", hex8 w.1.browserVI), ("engine64", hex64 w.1.engine64), ("engineFI", hex32 w.1.engineFI),
    ("url64", hex64 w.2.1), ("type64", hex64 w.2.2)]

/-- `ef` (mod_client.go:253-261). -/
def emitEf (f : EngineFn) : Bytes :=
  ascii "func(s string) entry.Entry64 {\n" ++
    f.cases.flatMap (fun c => ascii "if s>=\"" ++ c.1 ++ ascii "\"{return " ++ hex64 c.2 ++ ascii "}\n") ++
    ascii "return " ++ hex64 f.default ++ ascii "\n" ++ ascii "}"

/-- `clientModule.Compile` (mod_client.go:71-228). `files` are the base names of the input files with their rows. -/
def emitClient (args : List Bytes) (files : List (Bytes × List ClientRow)) (o : ClientOut) : Bytes :=
  emitHead args ++ ascii "import (\n\"github.com/koykov/entry\"\n\"regexp\"\n)\n\n" ++ ascii "var (\n" ++
    emitFiles "__cr_idx" "clientTuple" (files.map fun f => (f.1, f.2.map emitClientRow)) ++
    emitRes "__cr_re" (o.st.re.map fun p => ascii "(?i)(?:^|[^A-Z0-9\\-_]|[^A-Z0-9\\-]_|sprd-|MZ-)(?:" ++ p ++ ascii ")") ++
    emitTable "__cr_ef" "engineFn" (o.st.ef.map emitEf) ++
    (ascii "__cr_ev = map[entry.Entry64]int32{\n" ++
      o.ev.flatMap (fun x => hex64 x.1 ++ ascii ":" ++ hex32 (x.2 : Int) ++ ascii ",\n") ++ ascii "}\n") ++
    emitRes "__cr_evre" (o.evre.map fun p => ascii "(?i)" ++ p) ++
    emitBytes "__cr_buf" o.st.buf.buf ++ ascii ")\n"

/-- mod_os.go:141-142. -/
def emitOSRow (w : OSTuple) : Bytes :=
  sprintTuple "osTuple" [("name64", hex64 w.name64), ("nameSI", hex8 w.nameSI), ("matchRI", hex32 w.matchRI), ("match64", hex64 w.match64),
    ("versionSI", hex8 w.versionSI), ("version64", hex64 w.version64), ("versions64", hex64 w.versions64)]

/-- mod_os.go:132-133. -/
def emitOSVersionRow (w : OSVersionTuple) : Bytes :=
  sprintTuple "osVersionTuple" [("matchRI", hex32 w.matchRI), ("match64", hex64 w.match64), ("versionSI", hex8 w.versionSI),
    ("version64", hex64 w.version64)]

/-- `osModule.Compile` (mod_os.go:145-176). -/
def emitOS (args : List Bytes) (rows : List OSTuple) (st : St) : Bytes :=
  emitHead args ++ ascii "import (\n\"regexp\"\n)\n\n" ++ ascii "var (\n" ++
    emitTable "__or_os" "osTuple" (rows.map emitOSRow) ++ emitTable "__or_ov" "osVersionTuple" (st.ov.map emitOSVersionRow) ++
    emitRes "__or_re" (st.re.map fun p => ascii "(?i)" ++ p) ++ emitBytes "__or_buf" st.buf.buf ++ ascii ")\n"

/-- mod_vendor.go:89-90. -/
def emitVendorRow (w : VendorTuple) : Bytes := sprintTuple "vendorTuple" [("brand64", hex64 w.brand64), ("range64", hex64 w.range64)]

/-- `vendorModule.Compile` (mod_vendor.go:69-116). -/
def emitVendor (args : List Bytes) (rows : List VendorTuple) (st : St) : Bytes :=
  emitHead args ++ ascii "import (\n\"regexp\"\n)\n\n" ++ ascii "var (\n" ++
    emitTable "__vr_idx" "vendorTuple" (rows.map emitVendorRow) ++ emitRes "__vr_re" st.re ++ emitBytes "__vr_buf" st.buf.buf ++ ascii ")\n"

/-- `hintModule.Compile` (mod_hint.go:46-93). `files` are the base names of the input files with the pairs written for them. -/
def emitHint (args : List Bytes) (files : List (Bytes × List (UInt64 × Entry64))) (st : St) : Bytes :=
  emitHead args ++ ascii "import (\n\"github.com/koykov/entry\"\n)\n\n" ++ ascii "var (\n" ++
    (ascii "__hr_idx = map[uint64]entry.Entry64{\n" ++
      files.flatMap (fun f => ascii "// " ++ f.1 ++ ascii "\n" ++ f.2.flatMap (fun x => hex64 x.1 ++ ascii ":" ++ hex64 x.2 ++ ascii ",\n")) ++
      ascii "}\n") ++
    emitBytes "__hr_buf" st.buf.buf ++ ascii ")\n"

/-- mod_device.go:202-203, 209-210. -/
def emitModelRow (w : ModelTuple) : Bytes :=
  sprintTuple "modelTuple" [("type64", hex64 w.type64), ("matchRI", hex32 w.matchRI), ("match64", hex64 w.match64), ("model64", hex64 w.model64)]

/-- mod_device.go:214-215. -/
def emitDeviceRow (w : DeviceTuple) : Bytes :=
  sprintTuple "deviceTuple" [("type64", hex64 w.type64), ("brand64", hex64 w.brand64), ("matchRI", hex32 w.matchRI), ("match64", hex64 w.match64),
    ("modelSI", hex32 w.modelSI), ("models64", hex64 w.models64)]

/-- `deviceModule.Compile` (mod_device.go:107-254). -/
def emitDevice (args : List Bytes) (files : List (Bytes × List DeviceTuple)) (st : St) : Bytes :=
  emitHead args ++ ascii "import (\n\"regexp\"\n)\n\n" ++ ascii "var (\n" ++
    emitFiles "__dr_idx" "deviceTuple" (files.map fun f => (f.1, f.2.map emitDeviceRow)) ++ emitTable "__dr_dm" "modelTuple" (st.dm.map emitModelRow) ++
    emitRes "__dr_re" (st.re.map fun p => ascii "(?i)" ++ p) ++ emitBytes "__dr_buf" st.buf.buf ++ ascii ")\n"

end Verif.Compiler

import Verif.Spec.GoSource
import Verif.Data.Shipped
open Verif Verif.Go
def rd (f : String) : IO Bytes := do let b ← IO.FS.readBinFile f; return b.toList
instance : DecidableEq Compiler.EngineFn := fun a b => by
  cases a; cases b; rw [Compiler.EngineFn.mk.injEq]; infer_instance
def main : IO Unit := do
  let some f := file (← rd "/repo/vendor_repo.go") | IO.println "fail"
  IO.println s!"{value f "__vr_idx" (slice "vendorTuple" vendorTuple) == some Data.vrIdx} {value f "__vr_re" patterns == some (Data.vrRe.map Data.buf)} {value f "__vr_buf" bytes == some (Data.buf Data.vrBuf)}"
  let some f := file (← rd "/repo/hint_repo.go") | IO.println "fail"
  IO.println s!"{(value f "__hr_idx" mapIntEntry).map (·.map fun x => (x.1.toNat, x.2.toNat)) == some Data.hrIdx} {value f "__hr_buf" bytes == some (Data.buf Data.hrBuf)}"
  let some f := file (← rd "/repo/os_repo.go") | IO.println "fail"
  IO.println s!"{value f "__or_os" (slice "osTuple" osTuple) == some Data.orOs} {value f "__or_ov" (slice "osVersionTuple" osVersionTuple) == some Data.orOv} {value f "__or_re" patterns == some (Data.orRe.map Data.buf)} {value f "__or_buf" bytes == some (Data.buf Data.orBuf)}"
  let some f := file (← rd "/repo/client_repo.go") | IO.println "fail"
  IO.println s!"{(value f "__cr_idx" (array "clientTuple" clientTuple)).map (·.map (·.map (·.1))) == some [Data.crIdx0, Data.crIdx1, Data.crIdx2, Data.crIdx3, Data.crIdx4, Data.crIdx5, Data.crIdx6]} {value f "__cr_re" patterns == some (Data.crRe.map Data.buf)} {(value f "__cr_ef" (slice "engineFn" engineFn)) == some (Data.crEf.map fun f => (f.cases, f.default))} {(value f "__cr_ev" mapEntryInt).map (·.map fun x => (x.1.toNat, x.2.toNat)) == some Data.crEv} {value f "__cr_evre" patterns == some (Data.crEvre.map Data.buf)} {value f "__cr_buf" bytes == some (Data.buf Data.crBuf)}"
  let some f := file (← rd "/repo/device_repo.go") | IO.println "fail"
  IO.println s!"{value f "__dr_idx" (array "deviceTuple" deviceTuple) == some [Data.drIdx0, Data.drIdx1, Data.drIdx2, Data.drIdx3, Data.drIdx4, Data.drIdx5, Data.drIdx6, Data.drIdx7]} {value f "__dr_dm" (slice "modelTuple" modelTuple) == some Data.drDm} {value f "__dr_re" patterns == some (Data.drRe.map Data.buf)} {value f "__dr_buf" bytes == some (Data.buf Data.drBuf)}"

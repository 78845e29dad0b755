import Verif.Data.Client
import Verif.Data.OS
import Verif.Data.Vendor
import Verif.Data.Hint
import Verif.Data.Device
import Verif.Data.DeviceBuf
import Verif.Data.DeviceModels
import Verif.Data.DeviceRe
/-
The tables shipped in the repository, with a regexp library still to be chosen.
-/
namespace Verif.Data

/-- A Go map from its entries. -/
def mapOf (l : List (Nat × Nat)) (k : UInt64) : Option Nat := (l.find? fun x => Nat.beq x.1 k.toNat).map (·.2)

/-- The package-level tables of client_repo.go, device_repo.go, os_repo.go, vendor_repo.go and hint_repo.go, and the regexps of
engine_parser.go:11 and device_parser.go:41-42. -/
def shipped (compile : Bytes → Re) : Tables where
  crIdx := [crIdx0, crIdx1, crIdx2, crIdx3, crIdx4, crIdx5, crIdx6]
  crRe := crRe.map fun p => compile (buf p)
  crEf := crEf.map Compiler.EngineFn.run
  crEv := mapOf crEv
  crEvre := crEvre.map fun p => compile (buf p)
  crBuf := buf crBuf
  drIdx := [drIdx0, drIdx1, drIdx2, drIdx3, drIdx4, drIdx5, drIdx6, drIdx7]
  drDm := drDm
  drRe := drRe.map fun p => compile (buf p)
  drBuf := buf drBuf
  orOs := orOs
  orOv := orOv
  orRe := orRe.map fun p => compile (buf p)
  orBuf := buf orBuf
  vrIdx := vrIdx
  vrRe := vrRe.map fun p => compile (buf p)
  vrBuf := buf vrBuf
  hrIdx := fun h => (mapOf hrIdx h).map UInt64.ofNat
  hrBuf := buf hrBuf
  forceBlink := compile (buf (pat! "(?i)Chrome/.+ Safari/537.36"))
  forceTablet := compile (buf (pat! "(?i)Tablet"))
  forceMobile := compile (buf (pat! "(?i)Mobile"))

end Verif.Data

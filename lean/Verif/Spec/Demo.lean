import Verif.Model.Parse
/-
A small but complete set of rule tables, used to exhibit concrete, non-trivial cases of the hypotheses of the theorems.
-/
namespace Verif.Demo
open Verif

/-- First position of `s` in `b`. -/
def findSub (s : Bytes) : Bytes → Nat → Option Nat
  | [], i => if s = [] then some i else none
  | x :: b, i => if s.isPrefixOf (x :: b) then some i else findSub s b (i + 1)

/-- The regexp `lit([0-9._]*)`. -/
def litRe (lit : String) : Re where
  src := ascii (lit ++ "([\\d._]*)")
  ncap := 1
  find b := match findSub (ascii lit) b 0 with
    | some i =>
      let e := i + (ascii lit).length
      let n := ((b.drop e).takeWhile fun c => (48 ≤ c ∧ c ≤ 57) ∨ c = 46 ∨ c = 95).length
      some [i, e + n, e, e + n]
    | none => none

/-- The regexp `lit`, without groups. -/
def plainRe (lit : String) : Re where
  src := ascii lit
  ncap := 0
  find b := match findSub (ascii lit) b 0 with
    | some i => some [i, i + (ascii lit).length]
    | none => none

def e64 (lo hi : Nat) : Entry64 := Entry64.encode (UInt32.ofNat lo) (UInt32.ofNat hi)

def none' : ClientTuple := {}

/-- Browser "Chrome" (engine Blink), library "curl", feed reader "Feedly"; OS Android, iOS, Windows; one phone brand with a model
template; two vendors; one hint. -/
def tables : Tables where
  crIdx := [
    [{ match64 := e64 21 26, browser64 := e64 6 11 }],
    [{ matchRI := 0, browser64 := e64 0 6, browserVI := 1, engine64 := e64 6 11 }],
    [{ match64 := e64 15 21, browser64 := e64 15 21 }],
    [{ matchRI := 1, browser64 := e64 11 15, browserVI := 1 }],
    [none'], [none'], [none']]
  crRe := [litRe "Chrome/", litRe "curl/"]
  crEf := []
  crEv := fun e => if e = e64 6 11 then some 0 else none
  crEvre := [litRe "Chrome/"]
  crBuf := ascii "ChromeBlinkcurlFeedlyother"
  drIdx := [[{}], [{}], [{}], [{ brand64 := e64 0 6, matchRI := 0, modelSI := 0, type64 := 0 }], [{}], [{}], [{}], [{}]]
  drDm := [{ model64 := e64 6 14 }]
  drRe := [litRe "Pixel "]
  drBuf := ascii "GooglePixel $1phablet"
  orOs := [{ name64 := e64 0 7, matchRI := 0, versionSI := 1 }, { name64 := e64 7 14, match64 := e64 7 14 }, { name64 := e64 14 17, matchRI := 1, versionSI := 1 }]
  orOv := []
  orRe := [litRe "Android ", litRe "iPhone OS "]
  orBuf := ascii "AndroidWindowsiOS"
  vrIdx := [{ brand64 := e64 0 4, range64 := e64 0 1 }, { brand64 := e64 4 8, range64 := e64 1 2 }]
  vrRe := [plainRe "MATM", plainRe "MDDR"]
  vrBuf := ascii "AcerDell"
  hrIdx := fun h => if h = 7 then some (e64 0 8) else none
  hrBuf := ascii "Telegram"
  forceBlink := plainRe "AppleWebKit"
  forceTablet := plainRe "Tablet"
  forceMobile := plainRe "Mobile"

/-- A toy header hash. -/
def hash (b : Bytes) : UInt64 := if b = ascii "org.telegram" then 7 else 9

end Verif.Demo

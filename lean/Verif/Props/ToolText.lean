import Verif.Proofs.VersionText
import Verif.Props.CliFlags
import Verif.Props.ShippedText
import Verif.Props.VersionText
/-
C89 for versions and for the output of the comparison tool; C91 for the version getters.
-/
namespace Verif

open Data Regexp

/-- **C89** for the getters that give a version: its suffix and its text are well-formed UTF-8 if the user agent is. -/
theorem C89_version {H : Bytes → UInt64} {g : Getter} {q : Req} (hl : q.ua.length < 2 ^ 26) (hu : WellFormed q.ua) {v : Version}
    (h : uncached Regexp.lib.tables H g q = some (.version v)) : WellFormed v.suffix ∧ WellFormed v.string := by
  suffices hs : WellFormed v.suffix from ⟨hs, string_wf hs⟩
  have key : ∀ g', uncached Regexp.lib.tables H g q = ((uncached Regexp.lib.tables H g' q).bind fun
      | .text s => some (.version (({} : Version).parse s).1)
      | _ => none) → WellFormed v.suffix := by
    intro g' e
    rw [h] at e
    cases hx : uncached Regexp.lib.tables H g' q with
    | none => rw [hx] at e; cases e
    | some a =>
      rw [hx] at e
      cases a with
      | text s =>
        injection e with e
        injection e with e
        rw [e]
        exact parse_suffix_wf (C89_utf8 hl hu hx)
      | _ => cases e
  have other : ∀ {α : Type} (x : Option α) (f : α → Ans), (∀ a, f a ≠ .version v) → x.map f ≠ some (.version v) := by
    intro α x f hf hx
    obtain ⟨a, -, ha⟩ := Option.map_eq_some_iff.mp hx
    exact hf a ha
  cases g with
  | browserVersion => exact key _ (C73_browser q)
  | engineVersion => exact key _ (C73_engine q)
  | osVersion => exact key _ (C73_os q)
  | userAgent => rw [uncached_eq _ (by decide)] at h; cases h
  | _ => exact absurd ((congrArg Prod.snd (null_map _ _ _)).symm.trans h) (other _ _ nofun)

/-- **C91** for the getters: a version has a suffix only if the version string has four dots at least, and then the suffix is the end of that string, after a space or a dash. -/
theorem C91_getter_partial {T : Tables} {H : Bytes → UInt64} {g g' : Getter} (hp : VersionPair g g') {q : Req} {v : Version}
    (h : uncached T H g q = some (.version v)) (hs : v.suffix ≠ []) :
    ∃ a c, uncached T H g' q = some (.text (a ++ c :: v.suffix)) ∧ (c = 32 ∨ c = 45) ∧ 4 ≤ a.count 46 := by
  have e : uncached T H g q = (uncached T H g' q).bind fun
      | .text s => some (.version (({} : Version).parse s).1)
      | _ => none := by
    cases hp with
    | browser => exact C73_browser q
    | engine => exact C73_engine q
    | os => exact C73_os q
  rw [h] at e
  cases hx : uncached T H g' q with
  | none => rw [hx] at e; cases e
  | some a =>
    rw [hx] at e
    cases a with
    | text s =>
      injection e with e
      injection e with e
      subst e
      obtain ⟨a, c, e, h1, h2⟩ := C91_suffix_partial hs
      exact ⟨a, c, by rw [← e], h1, h2⟩
    | _ => cases e

example : ∃ a c, uncached Regexp.lib.tables (fun _ => 0) .engineVersionString { ua := ascii "AltiBrowser/1 WebKit/1.2.3.4.5-6", mc := ClientTypeBrowser } =
    some (.text (a ++ c :: ascii "6")) ∧ (c = 32 ∨ c = 45) ∧ 4 ≤ a.count 46 :=
  C91_getter_partial .engine (v := { major := 1, minor := 2, patch := 3, revision := 4, suffix := ascii "6", p := true }) (by decide +kernel) (by decide)

end Verif

namespace Verif.Cli

open Tool (FS put)
open Data Regexp

theorem report_wf {u ct b bv e ev dt br m o ov : Bytes} (h0 : WellFormed u) (h1 : WellFormed ct) (h2 : WellFormed b) (h3 : WellFormed bv) (h4 : WellFormed e)
    (h5 : WellFormed ev) (h6 : WellFormed dt) (h7 : WellFormed br) (h8 : WellFormed m) (h9 : WellFormed o) (h10 : WellFormed ov) :
    WellFormed (reportText u ct b bv e ev dt br m o ov) := by
  unfold reportText
  repeat' apply WellFormed.append
  all_goals first
    | assumption
    | exact .ascii (by decide)

/-- **C89** for `uaxpl -ua U` with the shipped rules: what a run that comes to its end leaves in the output is well-formed UTF-8 if `U`, below 64 MiB, is. -/
theorem C89_report {H : Bytes → UInt64} {lower : Bytes → Bytes} {e : Around} {fs fs' : FS} {ss : List (Flag × Bytes)} {as : List Bytes} {u : Bytes}
    (hs : Spelled ss as) (hv : Valid ss) (hu : last .ua ss = some u) (hne : u ≠ []) (hl : u.length < 2 ^ 26) (hopen : e.opens = true) (hw : WellFormed u)
    (h : Ran Regexp.lib.tables H lower e fs as fs') : ∃ r, fs' ((last .out ss).getD (ascii "out.diff.txt")) = some r ∧ WellFormed r := by
  obtain ⟨r, hr, rfl⟩ := (C90_shipped hs hv hu hne hl hopen).2 fs' h
  refine ⟨r, by simp [put], ?_⟩
  cases hr with
  | mk h1 h2 h3 h4 h5 h6 h7 h8 h9 h10 =>
    exact report_wf hw (clientTypeString_wf _) (C89_utf8 hl hw h2) (C89_version hl hw h3).2 (C89_utf8 hl hw h4) (C89_version hl hw h5).2 (deviceTypeString_wf _)
      (C89_utf8 hl hw h7) (C89_utf8 hl hw h8) (C89_utf8 hl hw h9) (C89_version hl hw h10).2

/-- A run to which this applies. -/
example (fs : FS) : ∃ fs' r, Ran Regexp.lib.tables fnv1 id demoAround fs [ascii "-ua", buf (pat! "Mozilla/5.0 Chrome/96.0 Safari/537.36")] fs' ∧
    fs' (ascii "out.diff.txt") = some r ∧ WellFormed r := by
  obtain ⟨fs', h⟩ := (C90_shipped (H := fnv1) (lower := id) (e := demoAround) (fs := fs) (ua_spelled (buf (pat! "Mozilla/5.0 Chrome/96.0 Safari/537.36"))) (ua_valid _) rfl
    (by decide +kernel) (by decide +kernel) rfl).1.mpr (by
      rintro t v ⟨a, z, i, rows, -, -, -, h4, h5⟩
      exact demo_safe rows (List.mem_of_getElem? h4) v h5)
  obtain ⟨r, h1, h2⟩ := C89_report (ua_spelled _) (ua_valid _) rfl (by decide +kernel) (by decide +kernel) rfl (.ascii (by decide +kernel)) h
  exact ⟨fs', r, h, h1, h2⟩

/-- A version with a suffix that is not ASCII. -/
example : (({} : Version).parse (ascii "1.2.3.4. " ++ [0xC3, 0xA9])).1.suffix = [0xC3, 0xA9] := by decide +kernel

end Verif.Cli

import Verif.Props.Shipped
/-
C27 is refuted: a user agent on which the client getters panic, evaluated with the modelled regexp library.
-/
namespace Verif

open Data

/-- With the default filters the Rutube TV application makes GetClientType panic. -/
theorem rutube_panics : uncached Regexp.lib.tables fnv1 .clientType { ua := buf (pat! "RutubeTVBlackAndroid") } = none := by decide +kernel

/-- C27 is refuted. -/
theorem C27_refuted : ¬ C27Claim Regexp.lib fnv1 := fun h => h .clientType _ (by decide +kernel) rutube_panics

/-- The hypotheses of `C27_panics` are met by this user agent (by `C27_exact`), so all client getters panic. -/
theorem rutube_chosen : ∃ t v, ClientChosen Regexp.lib.tables ClientTypeAll (buf (pat! "RutubeTVBlackAndroid")) t v ∧ UnsafeRule v :=
  ((C27_exact Regexp.lib (q := { ua := buf (pat! "RutubeTVBlackAndroid") }) (by decide +kernel) (by decide)).mp rutube_panics).2

example : uncached Regexp.lib.tables fnv1 .browserVersionString { ua := buf (pat! "RutubeTVBlackAndroid") } = none := by
  obtain ⟨t, v, h1, h2⟩ := rutube_chosen
  exact C27_panics Regexp.lib (q := { ua := buf (pat! "RutubeTVBlackAndroid") }) h1 h2 rfl

end Verif

import Verif.Props.Builtin
import Verif.Props.ShippedPanic
/-
C64 is refuted: two user agents with the same FNV-1 hash, evaluated with the shipped rules and the modelled regexp library.
-/
namespace Verif

open Data

/-- A user agent of curl. -/
def collideA : Bytes := buf (pat! "curl/7.68.0 (16319378163217724623)")

/-- A user agent of Chrome. -/
def collideB : Bytes := buf (pat! "Chrome/96.0 (08112059914118664350)")

theorem collide : fnv1 collideA = fnv1 collideB ∧ collideA ≠ collideB := by decide +kernel

/-- curl is a library, -/
theorem collide_a : uncached Regexp.lib.tables fnv1 .clientType { ua := collideA, mc := ClientTypeLibrary } = some (.clientType ClientTypeLibrary) := by
  decide +kernel

/-- Chrome is not. -/
theorem collide_b : uncached Regexp.lib.tables fnv1 .clientType { ua := collideB, mc := ClientTypeLibrary } = some (.clientType 0) := by decide +kernel

/-- C64 is refuted: after a context has looked at curl, another one is told that Chrome is a library. -/
theorem C64_refuted : ¬ C64Claim Regexp.lib.tables fnv1 := by
  intro h
  obtain ⟨s, hr, hl⟩ := C64_collision collide.1 ClientTypeLibrary ClientTypeLibrary collide_a
  have hu : ∀ q', Used (s.log.take 11) q' → q'.mc = ClientTypeLibrary ∧ q'.md = DeviceTypeAll := by
    intro q' hq
    have := used_mem hq
    rw [hl] at this
    simp only [List.take, usedList, List.mem_cons, List.not_mem_nil, or_false] at this
    rcases this with rfl | rfl <;> exact ⟨rfl, rfl⟩
  have hq : reqOf (s.log.take 11) 1 = { ua := collideB, mc := ClientTypeLibrary } := by rw [hl]; rfl
  have := h s hr (s.log.take 11) [] 1 .clientType (some (some (.clientType ClientTypeLibrary))) (.clientType 0) (by rw [hl]; rfl) (by decide)
    (fun q' h1 _ => by rw [hq]; exact hu q' h1) (by rw [hq]; exact collide_b)
  simp only [Option.some.injEq, Ans.clientType.injEq] at this
  exact absurd this (by decide)

end Verif

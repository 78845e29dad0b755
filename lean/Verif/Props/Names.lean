import Verif.Model.Parse
/-
C62: the names of client and device types.
-/
namespace Verif

/-- The documented names. -/
def clientNames : List (UInt8 × Bytes) := [(1, ascii "browser"), (2, ascii "mobile app"), (4, ascii "library"), (8, ascii "feed reader"),
  (16, ascii "mediaplayer"), (32, ascii "pim")]

def deviceNames : List (UInt16 × Bytes) := [(1, ascii "desktop"), (2, ascii "smartphone"), (4, ascii "phablet"), (8, ascii "tablet"), (16, ascii "console"),
  (32, ascii "tv"), (64, ascii "tv"), (128, ascii "camera"), (256, ascii "car browser"), (512, ascii "portable media player")]

/-- C62, clients: a declared type has its name; anything else, in particular 0 and every combination of types, is "UNK". -/
theorem C62_client_name (t : UInt8) : clientTypeString t = (clientNames.lookup t).getD (ascii "UNK") := by
  unfold clientTypeString clientNames
  simp only [List.lookup]
  have e : ∀ k : UInt8, (t = k) ↔ ((t == k) = true) := fun k => by simp
  simp only [ClientTypeBrowser, ClientTypeMobileApp, ClientTypeLibrary, ClientTypeFeedReader, ClientTypeMediaPlayer, ClientTypePIM, e, unknown]
  repeat (split <;> first | (simp_all; done) | skip)
  all_goals simp_all

/-- C62, devices. -/
theorem C62_device_name (t : UInt16) : deviceTypeString t = (deviceNames.lookup t).getD (ascii "UNK") := by
  by_cases h : t ∈ deviceNames.map (·.1)
  · exact (by decide +kernel : ∀ t ∈ deviceNames.map (·.1), deviceTypeString t = (deviceNames.lookup t).getD (ascii "UNK")) t h
  · have h1 : deviceNames.lookup t = none := List.lookup_eq_none_iff.mpr fun p hp => by
      rw [bne_iff_ne]
      rintro rfl
      exact h (List.mem_map.mpr ⟨p, hp, rfl⟩)
    rw [h1]
    have h2 : ∀ k ∈ deviceNames.map (·.1), t ≠ k := fun k hk he => h (he ▸ hk)
    unfold deviceTypeString
    rw [if_neg (h2 _ (by decide)), if_neg (h2 _ (by decide)), if_neg (h2 _ (by decide)), if_neg (h2 _ (by decide)), if_neg (h2 _ (by decide)),
      if_neg (h2 _ (by decide)), if_neg (h2 _ (by decide)), if_neg (h2 _ (by decide)), if_neg (h2 _ (by decide)), if_neg (h2 _ (by decide))]
    rfl

/-- C62: client names identify the type; device names do, but for the two kinds of TV. -/
theorem C62_distinct (s t : UInt8) (hs : s ∈ clientNames.map (·.1)) (h : clientTypeString s = clientTypeString t) : s = t := by
  by_cases ht : t ∈ clientNames.map (·.1)
  · exact (by decide +kernel : ∀ s ∈ clientNames.map (·.1), ∀ t ∈ clientNames.map (·.1), clientTypeString s = clientTypeString t → s = t) s hs t ht h
  · have h1 : clientNames.lookup t = none := List.lookup_eq_none_iff.mpr fun p hp => by
      rw [bne_iff_ne]
      rintro rfl
      exact ht (List.mem_map.mpr ⟨p, hp, rfl⟩)
    rw [C62_client_name t, h1] at h
    exact absurd h ((by decide +kernel : ∀ s ∈ clientNames.map (·.1), clientTypeString s ≠ ascii "UNK") s hs)

theorem C62_device_distinct (s t : UInt16) (hs : s ∈ deviceNames.map (·.1)) (h : deviceTypeString s = deviceTypeString t) :
    s = t ∨ (s = 32 ∧ t = 64) ∨ (s = 64 ∧ t = 32) := by
  by_cases ht : t ∈ deviceNames.map (·.1)
  · exact (by decide +kernel : ∀ s ∈ deviceNames.map (·.1), ∀ t ∈ deviceNames.map (·.1), deviceTypeString s = deviceTypeString t →
      s = t ∨ (s = 32 ∧ t = 64) ∨ (s = 64 ∧ t = 32)) s hs t ht h
  · have h1 : deviceNames.lookup t = none := List.lookup_eq_none_iff.mpr fun p hp => by
      rw [bne_iff_ne]
      rintro rfl
      exact ht (List.mem_map.mpr ⟨p, hp, rfl⟩)
    rw [C62_device_name t, h1] at h
    exact absurd h ((by decide +kernel : ∀ s ∈ deviceNames.map (·.1), deviceTypeString s ≠ ascii "UNK") s hs)

/-- C62: a type written in a rule under one of its six recognised names is the type of that name (TV for both TVs). -/
theorem C62_rule_type (d t : UInt16) (ht : t ∈ ([2, 4, 8, 16, 32, 512] : List UInt16)) : deviceTypeOfText (deviceTypeString t) d = t := by
  have e : ∀ t ∈ ([2, 4, 8, 16, 32, 512] : List UInt16), deviceTypeOfText (deviceTypeString t) d = t := by
    intro t ht
    simp only [List.mem_cons, List.not_mem_nil, or_false] at ht
    rcases ht with rfl | rfl | rfl | rfl | rfl | rfl <;> rfl
  exact e t ht

example : (64 : UInt16) ∈ deviceNames.map (·.1) ∧ deviceTypeString 64 = deviceTypeString 32 ∧ deviceTypeString 3 = ascii "UNK" ∧ clientTypeString 0 = ascii "UNK" := by decide +kernel

end Verif

import Verif.Props.DeadModels
/-
A user agent to which `C88_acrux` applies, evaluated with the modelled regexp library.
-/
namespace Verif

open Data

/-- Device rule `v` does not match "GACRUX". -/
def missB (v : DeviceTuple) : Bool :=
  match v.matchRI with
  | .ofNat i => match drRe[i]? with
    | some p => !(Regexp.compile (buf p)).isMatch (ascii "GACRUX")
    | none => false
  | .negSucc _ => !(List.range 7).any fun k => (textN drBuf v.match64).isPrefixOf (((ascii "GACRUX").map UInt8.toNat).drop k)

theorem miss_0 : ((drIdx3.take 40).all missB) = true := by decide +kernel
theorem miss_1 : (((drIdx3.drop 40).take 40).all missB) = true := by decide +kernel
theorem miss_2 : (((drIdx3.drop 80).take 40).all missB) = true := by decide +kernel
theorem miss_3 : (((drIdx3.drop 120).take 40).all missB) = true := by decide +kernel
theorem miss_4 : (((drIdx3.drop 160).take 40).all missB) = true := by decide +kernel
theorem miss_5 : (((drIdx3.drop 200).take 40).all missB) = true := by decide +kernel
theorem miss_6 : (((drIdx3.drop 240).take 28).all missB) = true := by decide +kernel

theorem miss_spec {v : DeviceTuple} (h : missB v = true) : ¬ DeviceMatch Regexp.lib.tables (ascii "GACRUX") v := by
  unfold missB at h
  rintro (⟨h1, re, h2, h3⟩ | ⟨h1, h2⟩)
  · match hv : v.matchRI with
    | .ofNat i =>
      rw [hv] at h h2
      change ((drRe.map fun p => Regexp.compile (buf p))[i]?) = some re at h2
      rw [List.getElem?_map] at h2
      cases hp : drRe[i]? with
      | none => rw [hp] at h2; cases h2
      | some p =>
        rw [hp] at h2
        cases h2
        change (match drRe[i]? with
          | some p => !(Regexp.compile (buf p)).isMatch (ascii "GACRUX")
          | none => false) = true at h
        rw [hp] at h
        change (!(Regexp.compile (buf p)).isMatch (ascii "GACRUX")) = true at h
        rw [h3] at h
        cases h
    | .negSucc i => rw [hv] at h1; exact absurd h1 (by simp)
  · match hv : v.matchRI with
    | .ofNat i => rw [hv] at h1; exact absurd h1 (by simp)
    | .negSucc i =>
      rw [hv] at h
      have h : (!(List.range 7).any fun k => (textN drBuf v.match64).isPrefixOf (((ascii "GACRUX").map UInt8.toNat).drop k)) = true := h
      obtain ⟨lit, h3, h4, a, z, h5⟩ := h2
      rw [textN_eq (cs := drBuf) h4, Bool.not_eq_true', ← Bool.not_eq_true, List.any_eq_true] at h
      have hl := congrArg List.length h5
      have h6 : (ascii "GACRUX").length = 6 := by decide +kernel
      rw [h6] at hl
      simp only [List.length_append] at hl
      refine h ⟨a.length, List.mem_range.mpr (by omega), ?_⟩
      rw [← h5, ← List.map_drop, List.append_assoc, List.drop_left, List.map_append]
      exact List.isPrefixOf_iff_prefix.mpr (List.prefix_append _ _)

theorem take_split {α : Type} (l : List α) (m n : Nat) : l.take (m + n) = l.take m ++ (l.drop m).take n := List.take_add

theorem misses : (drIdx3.take 268).all missB = true := by
  rw [show 268 = 40 + 40 + 40 + 40 + 40 + 40 + 28 from rfl]
  simp only [take_split, List.all_append, miss_0, Bool.true_and]
  have h1 := miss_1
  have h2 := miss_2
  have h3 := miss_3
  have h4 := miss_4
  have h5 := miss_5
  have h6 := miss_6
  simp only [Nat.reduceAdd]
  rw [h1, h2, h3, h4, h5, h6]
  rfl

/-- The regexp of rule 268, that of Ceibal, does. -/
theorem hit_268 : (match drIdx3[268]? with
    | some v => (match v.matchRI with
      | .ofNat i => (match drRe[i]? with
        | some p => (Regexp.compile (buf p)).isMatch (ascii "GACRUX")
        | none => false)
      | .negSucc _ => false) && (textN drBuf v.brand64 == (ascii "Ceibal").map UInt8.toNat)
    | none => false) = true := by decide +kernel

theorem gacrux_chosen : ∃ v, DeviceChosen Regexp.lib.tables DeviceTypeMobile (ascii "GACRUX") DeviceTypeMobile v ∧
    textN drBuf v.brand64 = (ascii "Ceibal").map UInt8.toNat := by
  have others : ∀ x ∈ [(DeviceTypeCamera, 0, DeviceTypeCamera), (DeviceTypeCarBrowser, 1, DeviceTypeCarBrowser), (DeviceTypeConsole, 2, DeviceTypeConsole),
      (DeviceTypePortableMediaPlayer, 5, DeviceTypeNotebook), (DeviceTypeShellTV, 6, DeviceTypeShellTV), (DeviceTypeTV, 7, DeviceTypeTV)],
      ¬ DeviceTypeMobile &&& x.1 ≠ 0 := by decide
  have h := hit_268
  split at h
  · rename_i v hv
    rw [Bool.and_eq_true, beq_iff_eq] at h
    obtain ⟨h1, h2⟩ := h
    refine ⟨v, ⟨[(DeviceTypeCamera, 0, DeviceTypeCamera), (DeviceTypeCarBrowser, 1, DeviceTypeCarBrowser), (DeviceTypeConsole, 2, DeviceTypeConsole),
      (DeviceTypePortableMediaPlayer, 5, DeviceTypeNotebook), (DeviceTypeShellTV, 6, DeviceTypeShellTV), (DeviceTypeTV, 7, DeviceTypeTV)],
      [(DeviceTypeNotebook, 4, DeviceTypeNotebook)], DeviceTypeMobile, 3, drIdx3, rfl, by decide, fun x hx h => absurd h (others x hx), rfl, ?_⟩, h2⟩
    refine ⟨drIdx3.take 268, drIdx3.drop 269, ?_, ?_, fun y hy => miss_spec (List.all_eq_true.mp misses y hy)⟩
    · obtain ⟨hlt, e⟩ := List.getElem?_eq_some_iff.mp hv
      rw [← e, List.getElem_cons_drop, List.take_append_drop]
    · split at h1
      · rename_i i hi
        split at h1
        · rename_i p hp
          refine .inl ⟨by rw [hi]; exact Int.natCast_nonneg i, Regexp.compile (buf p), ?_, h1⟩
          rw [hi]
          show (drRe.map fun p => Regexp.compile (buf p))[i]? = _
          rw [List.getElem?_map, hp]
          rfl
        · cases h1
      · cases h1
  · cases h

/-- With the filter for mobile devices the brand of the user agent "GACRUX" is Ceibal. -/
theorem gacrux_brand (H : Bytes → UInt64) : uncached Regexp.lib.tables H .brand { ua := ascii "GACRUX", md := DeviceTypeMobile } = some (.text (ascii "Ceibal")) := by
  have ht := (C41_total (H := H) (q := { ua := ascii "GACRUX", md := DeviceTypeMobile }) (shipped_wfdev Regexp.lib _) (by decide +kernel)).1
  obtain ⟨a, ha⟩ := Option.ne_none_iff_exists'.mp ht
  obtain ⟨s, rfl, hb⟩ := C41_brand ha
  rw [ha]
  obtain ⟨v, hc, hn⟩ := gacrux_chosen
  rcases hb with ⟨d', v', hc', hb⟩ | ⟨hd, -⟩ | ⟨hd, -⟩
  · obtain ⟨rfl, rfl⟩ := hc.unique hc'
    rcases hb with ⟨hb, -⟩ | ⟨-, raw, hb, ht⟩
    · rw [hb] at hn
      exact absurd hn (by decide +kernel)
    · rw [textN_eq (cs := drBuf) hb] at hn
      have hraw := map_toNat_inj hn
      subst hraw
      have hp : Proper (ascii "Ceibal") := proper_of (by decide +kernel)
      rw [hp.trimmed ht]
  · exact absurd hd hc.not_none
  · exact absurd hd hc.not_none

example : uncached Regexp.lib.tables fnv1 .model { ua := ascii "GACRUX", md := DeviceTypeMobile } = some (.text [195, 129, 99, 114, 117, 120]) :=
  C88_acrux (q := { ua := ascii "GACRUX", md := DeviceTypeMobile }) (by decide +kernel) (gacrux_brand _) ⟨ascii "G", [], by decide +kernel⟩

end Verif

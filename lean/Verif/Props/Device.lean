import Verif.Props.Context
/-
Properties of device detection: C24 (filter and order), C41 (brand).
-/
namespace Verif

section
variable {T : Tables} {H : Bytes → UInt64} {q : Req}

/-! ### C24 -/

/-- Type reported when no rule of an allowed category matches: desktop if the Notebook category is allowed and the OS is a desktop one,
else by keyword. -/
def FallbackType (T : Tables) (H : Bytes → UInt64) (q : Req) (typ : DeviceType) : Prop :=
  (q.md &&& DeviceTypeNotebook ≠ 0 ∧ (∃ os ∈ desktopNames, uncached T H .os q = some (.text os)) ∧ typ = DeviceTypeNotebook) ∨
  ((q.md &&& DeviceTypeNotebook = 0 ∨ ∃ os, os ∉ desktopNames ∧ uncached T H .os q = some (.text os)) ∧
    typ = if T.forceTablet.isMatch q.ua then DeviceTypeTablet else if T.forceMobile.isMatch q.ua then DeviceTypeMobile else 0)

theorem desktopOS_eq : desktopOS = desktopNames := rfl

theorem osAns_uncached : uncached T H .os q = (osAns T q.ua).map .text := by rw [uncached_eq _ (by decide)]; rfl

theorem fallback_type {typ : DeviceType} {b : Option (Entry64 × Bool)} (h : Fallback T q.md q.ua typ b) : FallbackType T H q typ := by
  obtain ⟨dsk, h1, h2⟩ := h
  unfold FallbackType
  rw [osAns_uncached]
  have e : typ = if dsk then DeviceTypeNotebook else
      if T.forceTablet.isMatch q.ua then DeviceTypeTablet else if T.forceMobile.isMatch q.ua then DeviceTypeMobile else 0 := by
    obtain ⟨h3, rfl, -⟩ | ⟨h3, h4, rfl, -⟩ | ⟨h3, h4, rfl, -⟩ := h2
    · simp [h3]
    · simp [h3, h4]
    · simp [h3, h4]
  have hdsk : q.md &&& DeviceTypeNotebook ≠ 0 → ∃ os, osAns T q.ua = some os ∧ (dsk = true ↔ os ∈ desktopNames) := by
    intro hm
    rw [if_pos hm, desktop, Option.map_eq_some_iff] at h1
    obtain ⟨os, h3, rfl⟩ := h1
    exact ⟨os, h3, by rw [desktopOS_eq]; simp⟩
  cases dsk with
  | true =>
    left
    have hm : q.md &&& DeviceTypeNotebook ≠ 0 := by
      intro hm
      rw [if_neg (by simpa using hm)] at h1
      cases h1
    obtain ⟨os, h3, h4⟩ := hdsk hm
    exact ⟨hm, ⟨os, h4.mp rfl, by rw [h3]; rfl⟩, e⟩
  | false =>
    right
    refine ⟨?_, e⟩
    by_cases hm : q.md &&& DeviceTypeNotebook = 0
    · exact .inl hm
    · obtain ⟨os, h3, h4⟩ := hdsk hm
      exact .inr ⟨os, fun hc => by simpa using h4.mpr hc, by rw [h3]; rfl⟩

/-- C24, what GetDeviceType answers without cache: the type of the first matching rule of the first allowed category that has one (the
rule's, or its model's, own type; else the category's), else the fall-backs. -/
theorem C24_device_type {a : Ans} (h : uncached T H .deviceType q = some a) :
    ∃ typ, a = .deviceType typ ∧
      ((∃ d v mo, DeviceChosen T q.md q.ua d v ∧ DeviceRes T q.ua v d mo typ) ∨ (DeviceNone T q.md q.ua ∧ FallbackType T H q typ)) := by
  rw [uncached_eq _ (by decide)] at h
  simp only [outAns, Option.map_eq_some_iff] at h
  obtain ⟨⟨typ, b⟩, h1, rfl⟩ := h
  refine ⟨typ, rfl, ?_⟩
  obtain ⟨d, v, mo, h2, h3, -⟩ | ⟨h2, h3⟩ := devOut_char h1
  · exact .inl ⟨d, v, mo, h2, h3⟩
  · exact .inr ⟨h2, fallback_type h3⟩

/-- The claim of C24. -/
def C24Claim (T : Tables) (H : Bytes → UInt64) : Prop :=
  ∀ q typ, uncached T H .deviceType q = some (.deviceType typ) → typ = 0 ∨ q.md &&& typ ≠ 0

/-- C24 is false: the keyword "Mobile" decides the type even if only cameras are allowed. -/
theorem C24_refuted : ¬ C24Claim Demo.tables Demo.hash := by
  intro h
  have := h { ua := Demo.phone, md := DeviceTypeCamera } DeviceTypeMobile (by decide +kernel)
  revert this
  decide +kernel

/-- One portable media player rule. -/
def Demo.playerTables : Tables :=
  { Demo.tables with drIdx := [[{}], [{}], [{}], [{}], [{}], [{ brand64 := Demo.e64 0 6, matchRI := 0 }], [{}], [{}]] }

/-- C24 is false, second way: with only portable media players allowed, a portable media player is reported as a desktop, because that is
the default type of the category. -/
theorem C24_refuted_player : ¬ C24Claim Demo.playerTables Demo.hash := by
  intro h
  have := h { ua := ascii "Pixel 4", md := DeviceTypePortableMediaPlayer } DeviceTypeNotebook (by decide +kernel)
  revert this
  decide +kernel

/-- A phone rule naming its own type. -/
def Demo.phabletTables : Tables :=
  { Demo.tables with drIdx := [[{}], [{}], [{}], [{ brand64 := Demo.e64 0 6, matchRI := 0, modelSI := 0, type64 := Demo.e64 14 21 }], [{}], [{}], [{}], [{}]] }

/-- C24 is false, third way: the type named by a rule is not compared with the filter. -/
theorem C24_refuted_rule : ¬ C24Claim Demo.phabletTables Demo.hash := by
  intro h
  have := h { ua := ascii "Pixel 4", md := DeviceTypeMobile } DeviceTypePhablet (by decide +kernel)
  revert this
  decide +kernel

theorem typeOf_cases {a b : Entry64} {d typ : DeviceType} (h : TypeOf T a b d typ) :
    typ = d ∨ ∃ s, (Text T.drBuf a s ∨ Text T.drBuf b s) ∧ typeNames.lookup s = some typ := by
  obtain ⟨s, h1, rfl⟩ := h
  cases hl : typeNames.lookup s with
  | none => exact .inl rfl
  | some t => exact .inr ⟨s, h1.imp (·.2) (·.2), hl⟩

/-- A type name used by rule `v` (its own, or that of its model `w`). -/
def RuleNames (T : Tables) (v : DeviceTuple) (typ : DeviceType) : Prop :=
  ∃ s, (Text T.drBuf v.type64 s ∨ ∃ w ∈ T.drDm, Text T.drBuf w.type64 s) ∧ typeNames.lookup s = some typ

/-- C24, what holds: the answer is 0 or allowed, if no keyword matches, whoever allows portable media players allows desktops, and the
types named by the rule found (and the models) are allowed. -/
theorem C24_partial {typ : DeviceType} (h : uncached T H .deviceType q = some (.deviceType typ))
    (hk : T.forceTablet.isMatch q.ua = false ∧ T.forceMobile.isMatch q.ua = false)
    (hp : q.md &&& DeviceTypePortableMediaPlayer ≠ 0 → q.md &&& DeviceTypeNotebook ≠ 0)
    (ht : ∀ d v t, DeviceChosen T q.md q.ua d v → RuleNames T v t → q.md &&& t ≠ 0) :
    typ = 0 ∨ q.md &&& typ ≠ 0 := by
  obtain ⟨typ', h0, h1⟩ := C24_device_type h
  injection h0 with h0
  subst h0
  obtain ⟨d, v, mo, h2, h3⟩ | ⟨-, ⟨h2, -, rfl⟩ | ⟨-, rfl⟩⟩ := h1
  · right
    have hd : q.md &&& d ≠ 0 := by
      obtain ⟨a, z, b, i, rows, e, hb, -⟩ := h2
      have hmem : (b, i, d) ∈ deviceOrder := by rw [e]; simp
      have key : ∀ x ∈ deviceOrder, x.2.2 = x.1 ∨ (x.1 = DeviceTypePortableMediaPlayer ∧ x.2.2 = DeviceTypeNotebook) := by decide
      rcases key _ hmem with e' | ⟨e', e''⟩
      · rw [show d = b from e']; exact hb
      · rw [show d = _ from e'']
        exact hp (by rw [← show b = _ from e']; exact hb)
    have fin : ∀ {a b : Entry64}, TypeOf T a b d typ → (a = v.type64 ∨ (∃ w ∈ T.drDm, a = w.type64)) → (b = v.type64 ∨ b = 0) → q.md &&& typ ≠ 0 := by
      intro a b hy ha hb
      rcases typeOf_cases hy with rfl | ⟨s, hs, hl⟩
      · exact hd
      · have hname : RuleNames T v typ ∨ s = [] := by
          rcases hs with hs | hs
          · rcases ha with rfl | ⟨w, hw, rfl⟩
            · exact .inl ⟨s, .inl hs, hl⟩
            · exact .inl ⟨s, .inr ⟨w, hw, hs⟩, hl⟩
          · rcases hb with rfl | rfl
            · exact .inl ⟨s, .inl hs, hl⟩
            · exact .inr (text_zero hs)
        rcases hname with hname | rfl
        · exact ht d v typ h2 hname
        · exact absurd hl (by rw [show typeNames.lookup [] = none from by decide]; exact fun h => nomatch h)
    cases h3 with
    | single _ _ hm _ _ hy => exact fin hy (.inr ⟨_, List.mem_of_getElem? hm, rfl⟩) (.inl rfl)
    | @model w raw t typ _ _ hm _ _ hy =>
      have : w ∈ T.drDm := List.mem_of_mem_drop (List.mem_of_mem_take hm.mem.1)
      exact fin hy (.inr ⟨w, this, rfl⟩) (.inl rfl)
    | noModel => exact hd
    | plain _ _ hy => exact fin hy (.inl rfl) (.inr rfl)
  · exact .inr h2
  · left; simp [hk.1, hk.2]

/-- The conditions are met by the demo tables, whose rules name no types: with only phones allowed, the phone is one. -/
example : uncached Demo.tables Demo.hash .deviceType { ua := ascii "Pixel 4", md := DeviceTypeMobile } = some (.deviceType DeviceTypeMobile) ∧
    Demo.tables.forceTablet.isMatch (ascii "Pixel 4") = false ∧ Demo.tables.forceMobile.isMatch (ascii "Pixel 4") = false := by decide +kernel

example : ∀ d v t, DeviceChosen Demo.tables DeviceTypeMobile (ascii "Pixel 4") d v → RuleNames Demo.tables v t → DeviceTypeMobile &&& t ≠ 0 := by
  rintro d v t ⟨a, z, b, i, rows, -, -, -, h1, h2⟩ ⟨s, h3, h4⟩
  have hv : v.type64 = 0 := by
    have h5 := List.mem_of_getElem? h1
    have : ∀ rows ∈ Demo.tables.drIdx, ∀ v ∈ rows, v.type64 = 0 := by decide +kernel
    exact this rows h5 v h2.mem.1
  have hw : ∀ w ∈ Demo.tables.drDm, w.type64 = 0 := by decide +kernel
  have hs : s = [] := by
    rcases h3 with h3 | ⟨w, h5, h3⟩
    · rw [hv] at h3; exact text_zero h3
    · rw [hw w h5] at h3; exact text_zero h3
  subst hs
  exact absurd h4 (by rw [show typeNames.lookup [] = none from by decide]; exact fun h => nomatch h)

/-- C24 with a shared cache: the answer is the uncached one under the device filter of some earlier call for the same user agent. -/
theorem C24_cached_partial {s : Sys} (hr : Sys.Reach T H s) {pre post : List Event} {t : Nat} {r : Option (Option Ans)}
    (hlog : s.log = pre ++ .ret t (.get .deviceType) r :: post)
    (hok : ∀ q', Used pre q' → q'.ua = (reqOf pre t).ua → uncached T H .deviceType ((reqOf pre t).withFiltersOf q') ≠ none) :
    ∃ q' typ, Used pre q' ∧ q'.ua = (reqOf pre t).ua ∧ r = some (some (.deviceType typ)) ∧
      ((∃ d v mo, DeviceChosen T q'.md q'.ua d v ∧ DeviceRes T q'.ua v d mo typ) ∨
        (DeviceNone T q'.md q'.ua ∧ FallbackType T H ((reqOf pre t).withFiltersOf q') typ)) := by
  obtain ⟨q', a, h1, h2, h3, rfl⟩ := C19_some_filter hr hlog (by decide) hok
  obtain ⟨typ, rfl, h4⟩ := C24_device_type h3
  refine ⟨q', typ, h1, h2, rfl, ?_⟩
  rw [h2]
  exact h4

/-! ### C41 -/

/-- The brand text at offsets `e` of `buf`: "UNK" for the empty offsets, else the trimmed text. -/
def BrandAt (buf : Bytes) (e : Entry64) (s : Bytes) : Prop :=
  (e = 0 ∧ s = ascii "UNK") ∨ (e ≠ 0 ∧ ∃ raw, Text buf e raw ∧ Trimmed raw s)

theorem brandText_at {e : Entry64} {v : Bool} {s : Bytes} (h : brandText T (if e = 0 then none else some (e, v)) = some s) :
    BrandAt (if v then T.vrBuf else T.drBuf) e s := by
  by_cases hz : e = 0
  · rw [if_pos hz] at h
    cases h
    exact .inl ⟨hz, rfl⟩
  · rw [if_neg hz] at h
    simp only [brandText, Option.map_eq_some_iff] at h
    obtain ⟨raw, h1, rfl⟩ := h
    exact .inr ⟨hz, raw, sliceE_iff.mp h1, trim_spec raw⟩

/-- C41 and the rest of GetBrand, without cache: the brand of the device rule found; without such a rule "UNK" if a keyword matches, else
the brand of the last vendor one of whose fragments matches, "UNK" if there is none. -/
theorem C41_brand {a : Ans} (h : uncached T H .brand q = some a) :
    ∃ s, a = .text s ∧
      ((∃ d v, DeviceChosen T q.md q.ua d v ∧ BrandAt T.drBuf v.brand64 s) ∨
       (DeviceNone T q.md q.ua ∧ (T.forceTablet.isMatch q.ua = true ∨ T.forceMobile.isMatch q.ua = true) ∧ s = ascii "UNK") ∨
       (DeviceNone T q.md q.ua ∧ T.forceTablet.isMatch q.ua = false ∧ T.forceMobile.isMatch q.ua = false ∧
         ((∃ v, Last (VendorMatch T q.ua) T.vrIdx v ∧ BrandAt T.vrBuf v.brand64 s) ∨
          ((∀ v ∈ T.vrIdx, ¬ VendorMatch T q.ua v) ∧ s = ascii "UNK")))) := by
  rw [uncached_eq _ (by decide)] at h
  simp only [outAns, Option.map_eq_some_iff, Option.bind_eq_some_iff] at h
  obtain ⟨s, ⟨⟨typ, b⟩, h1, h2⟩, rfl⟩ := h
  refine ⟨s, rfl, ?_⟩
  have hu : ∀ {s}, brandText T none = some s → s = ascii "UNK" := by
    intro s h; cases h; rfl
  obtain ⟨d, v, mo, h3, -, rfl⟩ | ⟨h3, dsk, -, ⟨h4, -, rfl⟩ | ⟨h4, h5, -, rfl⟩ | ⟨h4, h5, -, ⟨v, h6, rfl⟩ | ⟨h6, rfl⟩⟩⟩ := devOut_char h1
  · exact .inl ⟨d, v, h3, brandText_at h2⟩
  · exact .inr (.inl ⟨h3, .inl h4, hu h2⟩)
  · exact .inr (.inl ⟨h3, .inr h5, hu h2⟩)
  · exact .inr (.inr ⟨h3, h4, h5, .inl ⟨v, h6, brandText_at h2⟩⟩)
  · exact .inr (.inr ⟨h3, h4, h5, .inr ⟨h6, hu h2⟩⟩)

/-- C41, on well-formed tables it always answers. -/
theorem C41_total (hw : WFdev T q.ua) (hl : q.ua.length < 2 ^ 32) : uncached T H .brand q ≠ none ∧ uncached T H .deviceType q ≠ none := by
  rw [uncached_eq _ (by decide), uncached_eq _ (by decide)]
  exact ⟨outAns_total_dev hw hl (by decide) rfl, outAns_total_dev hw hl (by decide) rfl⟩

/-- Both vendors match: the last one wins. A keyword suppresses the vendors. -/
example : uncached Demo.tables Demo.hash .brand { ua := ascii "Mozilla MDDR MATM" } = some (.text (ascii "Dell")) ∧
    uncached Demo.tables Demo.hash .brand { ua := ascii "Mozilla MATM" } = some (.text (ascii "Acer")) ∧
    uncached Demo.tables Demo.hash .brand { ua := ascii "Mozilla MATM Tablet" } = some (.text (ascii "UNK")) ∧
    uncached Demo.tables Demo.hash .brand { ua := ascii "Mozilla" } = some (.text (ascii "UNK")) ∧
    uncached Demo.tables Demo.hash .brand { ua := Demo.phone } = some (.text (ascii "Google")) := by decide +kernel

end
end Verif

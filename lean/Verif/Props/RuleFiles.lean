import Verif.Proofs.RuleDevice
import Verif.Props.Client
import Verif.Props.OS
import Verif.Props.Model
import Verif.Props.Compiler
/-
C68–C71: what the library answers, in terms of the rule files it was generated from.
-/
namespace Verif.Compiler

theorem answer_iff {α : Type} {f : Option Ans} {mk : α → Ans} (inj : ∀ a b, mk a = mk b → a = b) {P : α → Prop} (hex : ∃ s, f = some (mk s) ∧ P s)
    (hu : ∀ {a b}, P a → P b → a = b) (s : α) : f = some (mk s) ↔ P s := by
  obtain ⟨s', h1, h2⟩ := hex
  constructor
  · intro h
    rw [h] at h1
    rwa [inj _ _ (Option.some.inj h1)]
  · intro h
    rw [h1, hu h2 h]

theorem text_inj (a b : Bytes) (h : Ans.text a = Ans.text b) : a = b := by injection h

section
variable {env : Env} {lib : Bytes → Re} {hash H : Bytes → UInt64} {r : Rules} {T : Tables} {q : Req}
  (hp : Package env lib hash r T) (hr : RulesOK env lib r q.ua) (hl : q.ua.length < 2 ^ 32)
include hp hr hl

/-! ### C68 -/

theorem package_total (g : Getter) (hg : g ≠ .model) : uncached T H g q ≠ none := by
  rw [uncached_eq _ hg]
  exact outAns_total (hp.wf hr).toWFbase hl ((hp.wf hr).chosen _) hg

/-- C68, type: GetClientType answers the category of the first rule, in the order of the rule files, that matches. -/
theorem C68_client_type (ty : ClientType) : uncached T H .clientType q = some (.clientType ty) ↔ ClientTypeSays env lib q.ua r q.mc ty := by
  refine answer_iff (fun a b h => by injection h) ?_ ClientTypeSays.unique ty
  obtain ⟨cs, _, _, _, _, _, _, ⟨c1, c2, c3, c4, _⟩, _⟩ := hp.parts
  obtain ⟨a, ha⟩ := Option.ne_none_iff_exists'.mp (package_total (H := H) hp hr hl .clientType (by decide))
  rcases C23_client_type ha with ⟨t, v, h1, rfl⟩ | ⟨h1, rfl⟩
  · obtain ⟨t', h2, _⟩ := client_chosen c4 c1 c2 h1
    exact ⟨t, ha, .inl ⟨t', h2⟩⟩
  · exact ⟨0, ha, .inr ⟨client_none c4 c1 c2 h1, rfl⟩⟩

/-- C68, name: without header, GetBrowser answers the name written in that rule. -/
theorem C68_browser (hh : q.header = []) (s : Bytes) : uncached T H .browser q = some (.text s) ↔ BrowserSays env lib q.ua r q.mc s := by
  refine answer_iff text_inj ?_ BrowserSays.unique s
  obtain ⟨cs, _, _, _, _, _, _, ⟨c1, c2, c3, c4, _⟩, _⟩ := hp.parts
  obtain ⟨a, ha⟩ := Option.ne_none_iff_exists'.mp (package_total (H := H) hp hr hl .browser (by decide))
  rcases C23_client_name hh ha with ⟨t, v, n, h1, hn, rfl⟩ | ⟨h1, rfl⟩
  · obtain ⟨t', h2, den, _⟩ := client_chosen c4 c1 c2 h1
    refine ⟨n, ha, .inl ⟨t, t', h2, ?_⟩⟩
    unfold shown
    rcases hn with ⟨h0, rfl⟩ | ⟨h0, ht⟩
    · rw [if_pos ((optText_nil den.name).mp h0)]
    · rw [if_neg fun h => h0 ((optText_nil den.name).mpr h)]
      rcases den.name with ⟨_, k⟩ | ⟨_, _, k⟩
      · exact absurd k h0
      · rw [c2] at ht
        exact text_unique ht k
  · exact ⟨_, ha, .inr ⟨client_none c4 c1 c2 h1, rfl⟩⟩

/-- C68, version: GetBrowserVersionString answers what that rule says about the version, without a prefix up to '/' and without trailing
dots. -/
theorem C68_version (s : Bytes) : uncached T H .browserVersionString q = some (.text s) ↔ BrowserVersionSays env lib q.ua r q.mc s := by
  refine answer_iff text_inj ?_ BrowserVersionSays.unique s
  obtain ⟨cs, _, _, _, _, _, _, ⟨c1, c2, c3, c4, _⟩, _⟩ := hp.parts
  have hw := hp.wf hr
  obtain ⟨s, ha, _, h⟩ := C30_shape (H := H) hw.toWFbase (hw.chosen q.mc) hl
  rcases h with ⟨h1, rfl⟩ | ⟨t, v, raw, h1, hv, hc⟩
  · exact ⟨_, ha, .inr ⟨client_none c4 c1 c2 h1, rfl⟩⟩
  · obtain ⟨t', h2, den, hh⟩ := client_chosen c4 c1 c2 h1
    exact ⟨s, ha, .inl ⟨t, t', raw, h2, client_version c1 c2 den hh hv, hc⟩⟩

/-- C68, engine: GetEngine answers the engine the rule of the browser names for the version found, else the first matching rule of the engine
file, else "Blink" if the user agent is recognised as Chromium based. -/
theorem C68_engine (hth : ThresholdsOK r) (s : Bytes) :
    uncached T H .engine q = some (.text s) ↔ EngineSays env lib q.ua T.forceBlink r q.mc s := by
  refine answer_iff text_inj ?_ (EngineSays.unique hth) s
  obtain ⟨cs, _, _, _, _, _, _, ⟨c1, c2, c3, c4, c5, c6, _⟩, _⟩ := hp.parts
  have hw := hp.wf hr
  obtain ⟨s, ha, h⟩ := C55_engine (H := H) hw.toWFbase (hw.chosen q.mc) hl
  refine ⟨s, ha, ?_⟩
  rcases h with ⟨v, e, h1, he, hs⟩ | ⟨⟨t, v, h1, hne⟩, rfl⟩ | ⟨h1, rfl⟩
  · obtain ⟨t, h2, den, hh⟩ := client_chosen c4 c1 c2 h1
    obtain ⟨f, hf, htf⟩ := h2.mem
    obtain ⟨_, _, _, rows, _, _, _, k1, k2⟩ := h1
    obtain ⟨n, hb, ho, _⟩ := client_engineOf c4 c1 c2 c3 c6 c5 den (c5 rows (List.mem_of_getElem? k1) v k2.mem.1).2 hh (hth f hf t htf) he
    refine .inl ⟨t, n, h2, hb, ?_⟩
    rcases hs with ⟨h0, ht⟩ | ⟨h0, rfl⟩
    · rw [if_neg fun h => h0 ((optText_nil ho).mpr h)]
      rcases ho with ⟨_, k⟩ | ⟨_, _, k⟩
      · exact absurd k h0
      · rw [c2] at ht
        exact text_unique ht k
    · rw [if_pos ((optText_nil ho).mp h0)]
  · obtain ⟨t', h2, _⟩ := client_chosen c4 c1 c2 h1
    exact .inr (.inl ⟨⟨t, t', h2, hne⟩, rfl⟩)
  · exact .inr (.inr ⟨client_none c4 c1 c2 h1, rfl⟩)

/-- C68, engine version: GetEngineVersionString answers what the pattern made for the engine's name captures. An engine known only from the
engine file has no such pattern and no version; neither has the forced "Blink". -/
theorem C68_engine_version (hth : ThresholdsOK r) (s : Bytes) :
    uncached T H .engineVersionString q = some (.text s) ↔ EngineVersionStringSays env lib q.ua r q.mc s := by
  refine answer_iff text_inj ?_ (EngineVersionStringSays.unique hth) s
  obtain ⟨cs, _, _, _, _, _, ev, ⟨c1, c2, c3, c4, c5, c6, c7, c8, c9, c10, c11, c12, c13⟩, _⟩ := hp.parts
  have hw := hp.wf hr
  obtain ⟨s, ha, h⟩ := C56_engine_version (H := H) hw.toWFbase (hw.chosen q.mc) hl
  refine ⟨s, ha, ?_⟩
  rcases h with ⟨v, e, h1, he, hs⟩ | ⟨⟨t, v, h1, hne⟩, rfl⟩ | ⟨h1, rfl⟩
  · obtain ⟨t, h2, den, hh⟩ := client_chosen c4 c1 c2 h1
    obtain ⟨f, hf, htf⟩ := h2.mem
    obtain ⟨_, _, _, rows, _, _, _, k1, k2⟩ := h1
    obtain ⟨n, hb, ho, hi⟩ := client_engineOf c4 c1 c2 c3 c6 c5 den (c5 rows (List.mem_of_getElem? k1) v k2.mem.1).2 hh (hth f hf t htf) he
    exact .inl ⟨t, n, h2, hb, client_engineVersion c12 c13 c7 c8 c9 c10 c11 ho hi hs⟩
  · obtain ⟨t', h2, _⟩ := client_chosen c4 c1 c2 h1
    exact .inr (.inl ⟨⟨t, t', h2, hne⟩, rfl⟩)
  · exact .inr (.inr ⟨client_none c4 c1 c2 h1, rfl⟩)

/-! ### C69 -/

/-- C69, name: GetOS answers the trimmed name given by the first OS rule, in file order, that matches and is not skipped; "UNK" without one. -/
theorem C69_os : ∃ s, uncached T H .os q = some (.text s) ∧ OSSays env lib q.ua r s := by
  obtain ⟨_, os, _, _, _, _, _, _, ⟨c1, c2, c3, c4⟩, _⟩ := hp.parts
  obtain ⟨s, ha, h⟩ := C53_os (H := H) (hp.wf hr).toWFdev hl
  refine ⟨s, ha, ?_⟩
  rcases h with ⟨h1, rfl⟩ | ⟨x, raw, h1, h2, h3⟩
  · exact .inr ⟨os_none c1 c2 hp.src c4 h1, rfl⟩
  · obtain ⟨t, h4, den, _⟩ := os_chosen c1 c2 hp.src c4 h1
    exact .inl ⟨t, raw, h4, os_name c1 c2 den h2, h3⟩

/-- C69, name, converse: a name other than the empty one and "UNK" is answered exactly if the rules give it. -/
theorem C69_os_iff {s : Bytes} (hs : s ≠ [] ∧ s ≠ ascii "UNK") : uncached T H .os q = some (.text s) ↔ OSSays env lib q.ua r s := by
  obtain ⟨s', h1, h2⟩ := C69_os (H := H) hp hr hl
  rw [h1]
  constructor
  · intro h; cases h; exact h2
  · intro h
    rcases h2.unique h with rfl | ⟨_, k | k⟩
    · rfl
    · exact absurd k hs.1
    · exact absurd k hs.2

/-- C69, version: GetOSVersionString answers what that rule says about the version, underscores replaced by dots. -/
theorem C69_os_version (s : Bytes) : uncached T H .osVersionString q = some (.text s) ↔ OSVersionSays env lib q.ua r s := by
  refine answer_iff text_inj ?_ OSVersionSays.unique s
  obtain ⟨_, os, _, _, _, _, _, _, ⟨c1, c2, c3, c4⟩, _⟩ := hp.parts
  obtain ⟨s, ha, _, h⟩ := C31_shape (H := H) (hp.wf hr).toWFdev hl
  refine ⟨s, ha, ?_⟩
  rcases h with ⟨h1, rfl⟩ | ⟨x, raw, h1, h2, h3, h4⟩
  · exact .inr ⟨os_none c1 c2 hp.src c4 h1, rfl⟩
  · obtain ⟨t, h5, den, hh⟩ := os_chosen c1 c2 hp.src c4 h1
    refine .inl ⟨t, raw, h5, os_version c1 c2 c3 den hh h2, ?_⟩
    refine List.ext_getElem? fun i => ?_
    rw [List.getElem?_map]
    cases hi : raw[i]? with
    | none => simp at hi ⊢; omega
    | some b => rw [h4 i b hi]; rfl

/-! ### C70 -/

/-- C70, type: GetDeviceType answers the type given by the matching device rule with the alphabetically least brand (not the first in the file),
of the first allowed category that has a match; without one, "desktop" by OS name, or the type of a keyword. -/
theorem C70_device_type (hb : BrandsOK r) (typ : DeviceType) :
    uncached T H .deviceType q = some (.deviceType typ) ↔ DeviceTypeSays env lib q.ua T.forceTablet T.forceMobile r q.md typ := by
  refine answer_iff (fun a b h => by injection h) ?_ (DeviceTypeSays.unique hb) typ
  obtain ⟨_, _, ds, _, _, _, _, _, _, ⟨c1, c2, c3, c4⟩, _⟩ := hp.parts
  obtain ⟨a, ha⟩ := Option.ne_none_iff_exists'.mp (package_total (H := H) hp hr hl .deviceType (by decide))
  obtain ⟨typ, rfl, h⟩ := C24_device_type ha
  refine ⟨typ, ha, ?_⟩
  rcases h with ⟨d, v, mo, h1, h2⟩ | ⟨h1, h2⟩
  · obtain ⟨t, h3, den, hh⟩ := device_chosen c1 c2 c4 h1
    exact .inl ⟨d, t, mo, h3, device_gives c1 c2 c3 den hh h2⟩
  · refine .inr ⟨device_none c1 c2 c4 h1, ?_⟩
    obtain ⟨s, h3, h4⟩ := C69_os (H := H) hp hr hl
    unfold FallbackType at h2
    rw [h3] at h2
    rcases h2 with ⟨k1, ⟨os, k2, k3⟩, k4⟩ | ⟨k1, k4⟩
    · cases k3
      exact .inl ⟨k1, ⟨s, k2, h4⟩, k4⟩
    · refine .inr ⟨?_, k4⟩
      rcases k1 with k1 | ⟨os, k2, k3⟩
      · exact .inl k1
      · cases k3
        exact .inr ⟨s, k2, h4⟩

/-- C70, model: GetModel answers the model text of that rule, its group references expanded and outer blanks removed. -/
theorem C70_model (hb : BrandsOK r) (hsize : modelBound T q.ua < 2 ^ 32) (s : Bytes) :
    uncached T H .model q = some (.text s) ↔ ModelSays env lib q.ua r q.md s := by
  refine answer_iff text_inj ?_ (ModelSays.unique hb) s
  obtain ⟨_, _, ds, _, _, _, _, _, _, ⟨c1, c2, c3, c4⟩, _⟩ := hp.parts
  obtain ⟨mo, s, h, ht, ha⟩ := C32_model (H := H) (hp.wf hr).toWFdev hl hsize
  refine ⟨s, ha, ?_⟩
  rcases h with ⟨d, v, typ, h1, h2⟩ | ⟨h1, rfl⟩
  · obtain ⟨t, h3, den, hh⟩ := device_chosen c1 c2 c4 h1
    exact .inl ⟨d, t, mo, typ, h3, device_gives c1 c2 c3 den hh h2, ht⟩
  · exact .inr ⟨device_none c1 c2 c4 h1, trimmed_nil ht⟩

/-- C70, brand: GetBrand answers the brand of that rule; without one and without a keyword, the alphabetically greatest vendor that matches. -/
theorem C70_brand (hb : BrandsOK r) (s : Bytes) :
    uncached T H .brand q = some (.text s) ↔ BrandSays env lib q.ua T.forceTablet T.forceMobile r q.md s := by
  refine answer_iff text_inj ?_ (BrandSays.unique hb) s
  obtain ⟨_, _, ds, vs, _, _, _, _, _, ⟨c1, c2, c3, c4⟩, ⟨v1, v2, v3⟩, _⟩ := hp.parts
  obtain ⟨a, ha⟩ := Option.ne_none_iff_exists'.mp (package_total (H := H) hp hr hl .brand (by decide))
  obtain ⟨s, rfl, h⟩ := C41_brand ha
  refine ⟨s, ha, ?_⟩
  rcases h with ⟨d, v, h1, h2⟩ | ⟨h1, h2, rfl⟩ | ⟨h1, h2, h3, h4⟩
  · obtain ⟨t, h3, den, hh⟩ := device_chosen c1 c2 c4 h1
    rw [c2] at h2
    exact .inl ⟨d, t, h3, brand_called den.brand h2⟩
  · exact .inr (.inl ⟨device_none c1 c2 c4 h1, h2, rfl⟩)
  · refine .inr (.inr ⟨device_none c1 c2 c4 h1, h2, h3, ?_⟩)
    rcases h4 with ⟨w, k1, k2⟩ | ⟨k1, rfl⟩
    · obtain ⟨v, hv, den⟩ := v3.last (p := VendorRule.Hits lib q.ua) (fun a b _ d => vendor_hits v1 d) k1
      rw [v2] at k2
      exact .inl ⟨v, last_greatest hv, brand_called den.brand k2⟩
    · refine .inr ⟨fun v hv => ?_, rfl⟩
      exact v3.none (p := VendorRule.Hits lib q.ua) (fun a b _ d => vendor_hits v1 d) k1 v
        ((sortBy_perm (fun x : VendorRule => x.name) _).mem_iff.mpr hv)

/-! ### C71 -/

/-- C71: GetBrowser on a context with a header listed in the hint files answers the name given by the first file that lists it. The hash the
tables were generated with has to be the library's and must not confuse the header with another listed one. -/
theorem C71_hint (hne : q.header ≠ []) (h0 : hash q.header ≠ 0) (hinj : ∀ k v, hintValue r.hint k = some v → hash k = hash q.header → k = q.header)
    {v : Bytes} (hv : hintValue r.hint q.header = some v) (hvn : v ≠ []) : uncached T hash .browser q = some (.text v) := by
  obtain ⟨_, _, _, _, hs, hl', _, _, _, _, _, ⟨c1, c2, c3⟩⟩ := hp.parts
  obtain ⟨a, ha⟩ := Option.ne_none_iff_exists'.mp (package_total (H := hash) hp hr hl .browser (by decide))
  obtain ⟨e, he⟩ := c3.all _ _ hv
  have hfind : T.hrIdx (hash q.header) = some e := by
    rw [c2]
    show ((hl'.map (fun x => (hash x.1, x.2))).find? (fun x => x.1 == hash q.header)).map (·.2) = some e
    cases hf : (hl'.map (fun x => (hash x.1, x.2))).find? (fun x => x.1 == hash q.header) with
    | none =>
      rw [List.find?_eq_none] at hf
      exact absurd (by simp) (hf (hash q.header, e) (List.mem_map.mpr ⟨_, he, rfl⟩))
    | some y =>
      have hy1 : y.1 = hash q.header := by simpa using List.find?_some hf
      obtain ⟨x, hx, rfl⟩ := List.mem_map.mp (List.mem_of_find?_eq_some hf)
      obtain ⟨w, hw, _⟩ := c3.value x.1 x.2 hx
      have := hinj x.1 w hw hy1
      have := nodup_inj c3.nodup hx he this
      rw [this]; rfl
  obtain ⟨w, hw, ht⟩ := c3.value _ _ he
  rw [hv] at hw; cases hw
  rw [ha, C29_known hne h0 hfind (.inr ⟨text_ne_zero ht hvn, by rw [c1]; exact ht⟩) ha]

/-- C71, other headers: the answer is "UNK". -/
theorem C71_unknown (hne : q.header ≠ []) (h0 : hash q.header ≠ 0) (hinj : ∀ k v, hintValue r.hint k = some v → hash k = hash q.header → k = q.header)
    (hv : hintValue r.hint q.header = none) : uncached T hash .browser q = some (.text (ascii "UNK")) := by
  obtain ⟨_, _, _, _, hs, hl', _, _, _, _, _, ⟨c1, c2, c3⟩⟩ := hp.parts
  obtain ⟨a, ha⟩ := Option.ne_none_iff_exists'.mp (package_total (H := hash) hp hr hl .browser (by decide))
  have hfind : T.hrIdx (hash q.header) = none := by
    rw [c2]
    show ((hl'.map (fun x => (hash x.1, x.2))).find? (fun x => x.1 == hash q.header)).map (·.2) = none
    rw [Option.map_eq_none_iff, List.find?_eq_none]
    intro y hy hy1
    obtain ⟨x, hx, rfl⟩ := List.mem_map.mp hy
    obtain ⟨w, hw, _⟩ := c3.value x.1 x.2 hx
    have := hinj x.1 w hw (by simpa using hy1)
    rw [this, hv] at hw
    cases hw
  rw [ha, C29_unknown hne h0 hfind ha]

end

/-! ### Non-vacuity -/

/-- A library whose regexps for the demo rules look for one word followed by a number. -/
def demoWord (p : Bytes) : String :=
  ((["Chrome", "Android", "Pixel", "NT 6", "MDDR", "MAAR", "WebKit", "Blink"] : List String).find? (fun w => Demo.findSub (ascii w) p 0 ≠ none)).elim "?"
    fun w => w ++ (if w = "NT 6" then "." else if w = "Chrome" || w = "WebKit" || w = "Blink" then "/" else " ")

def demoLib (p : Bytes) : Re := { Demo.litRe (demoWord p) with src := p }

theorem demoLib_rulesOK (u : Bytes) : RulesOK demoEnv demoLib demoFull u := by
  have h := demo_rulesOK u
  have ref : ∀ (p v : Bytes) (ix : Bytes → Int8), (v.headD 0 ≠ 36 ∨ ix v.tail = 1) → RefOK (demoLib p) u v ix := by
    rintro p v ix h x rfl _
    have : ix x = 1 := h.resolve_left fun h => h rfl
    rw [this]
    exact .inr (by change 0 ≤ (1 : Int8).toInt ∧ (1 : Int8).toInt ≤ ((1 : Nat) : Int) ∧ (1 : Int8).toInt ≤ 62; decide)
  exact {
    clientFiles := h.clientFiles
    clientRef := fun f hf t ht p _ => ref _ _ _ ((by decide +kernel : ∀ f ∈ demoFull.client, ∀ t ∈ f, t.version.headD 0 ≠ 36 ∨ clientIx t.version.tail = 1) f hf t ht)
    clientEngine := h.clientEngine
    os := h.os
    osRef := fun t ht p _ => ⟨ref _ _ _ ((by decide +kernel : ∀ t ∈ demoFull.os, t.name.headD 0 ≠ 36 ∨ osIx t.name.tail = 1) t ht),
      fun _ => ref _ _ _ ((by decide +kernel : ∀ t ∈ demoFull.os, t.version.headD 0 ≠ 36 ∨ osIx t.version.tail = 1) t ht)⟩
    osVersionRef := fun t ht v hv p _ => ref _ _ _
      ((by decide +kernel : ∀ t ∈ demoFull.os, ∀ v ∈ t.versions, v.version.headD 0 ≠ 36 ∨ osIx v.version.tail = 1) t ht v hv)
    deviceFiles := h.deviceFiles
    models := h.models }

def outOf (hash : Bytes → UInt64) (r : Rules) : Outputs := (compile demoEnv hash r).getD ⟨⟨[], [], [], {}⟩, ([], {}), ([], {}), ([], {}), ([], {})⟩

def packageOf (hash : Bytes → UInt64) (r : Rules) : Tables :=
  tablesOf demoLib (Demo.plainRe "Chromium") (Demo.plainRe "Tab") (Demo.plainRe "Mob") (outOf hash r)

theorem package_of {hash : Bytes → UInt64} {r : Rules} (h : (compile demoEnv hash r).isSome = true)
    (hs : Small (outOf hash r).client.st ∧ Small (outOf hash r).os.2 ∧ Small (outOf hash r).device.2 ∧ Small (outOf hash r).vendor.2 ∧ Small (outOf hash r).hint.2) :
    Package demoEnv demoLib hash r (packageOf hash r) where
  made := by
    have h1 : compile demoEnv hash r = some (outOf hash r) := by
      obtain ⟨o, ho⟩ := Option.isSome_iff_exists.mp h
      unfold outOf
      rw [ho]; rfl
    exact ⟨outOf hash r, _, _, _, h1, ⟨hs.1, hs.2.1, hs.2.2.1, hs.2.2.2.1, hs.2.2.2.2⟩, rfl⟩
  lib_wf := fun p => Demo.litRe_wf (demoWord p)
  src := fun _ => rfl
  engines := fun n _ => Demo.litRe_group (demoWord (anyCase (enginePattern n)))

/-- A hash that tells the demo headers apart. -/
def demoHash (b : Bytes) : UInt64 := UInt64.ofNat (b.foldl (fun h c => (h * 31 + c.toNat) % 1000003 + 1) 7)

def demoPackage : Tables := packageOf demoHash demoFull

theorem demo_package : Package demoEnv demoLib demoHash demoFull demoPackage := package_of (by decide +kernel) (by decide +kernel)

theorem demo_thresholds : ThresholdsOK demoFull := by unfold ThresholdsOK; decide +kernel

theorem demo_brands : BrandsOK demoFull := ⟨by decide +kernel, by decide +kernel⟩

def demoUA : Bytes := ascii "Android 9; Pixel 4 Chrome/30.1."

/-- The hypotheses of C68–C71 hold together, and the answers are those one reads off the rules. -/
example : Package demoEnv demoLib demoHash demoFull demoPackage ∧ RulesOK demoEnv demoLib demoFull demoUA ∧ ThresholdsOK demoFull ∧
    BrandsOK demoFull ∧ demoUA.length < 2 ^ 32 ∧ modelBound demoPackage demoUA < 2 ^ 32 :=
  ⟨demo_package, demoLib_rulesOK _, demo_thresholds, demo_brands, by decide +kernel, by decide +kernel⟩
example : BrowserVersionSays demoEnv demoLib demoUA demoFull ClientTypeAll (ascii "30.1") :=
  (C68_version (H := demoHash) (q := { ua := demoUA }) demo_package (demoLib_rulesOK _) (by decide +kernel) _).mp (by decide +kernel)
example : BrowserSays demoEnv demoLib demoUA demoFull ClientTypeAll (ascii "Chrome") :=
  (C68_browser (H := demoHash) (q := { ua := demoUA }) demo_package (demoLib_rulesOK _) (by decide +kernel) rfl _).mp (by decide +kernel)
example : EngineSays demoEnv demoLib demoUA (Demo.plainRe "Chromium") demoFull ClientTypeAll (ascii "Blink") :=
  (C68_engine (H := demoHash) (q := { ua := demoUA }) demo_package (demoLib_rulesOK _) (by decide +kernel) demo_thresholds _).mp (by decide +kernel)
example : EngineVersionStringSays demoEnv demoLib demoUA demoFull ClientTypeAll (ascii "30.1.") :=
  (C68_engine_version (H := demoHash) (q := { ua := demoUA }) demo_package (demoLib_rulesOK _) (by decide +kernel) demo_thresholds _).mp (by decide +kernel)
example : OSSays demoEnv demoLib demoUA demoFull (ascii "Android") :=
  (C69_os_iff (H := demoHash) (q := { ua := demoUA }) demo_package (demoLib_rulesOK _) (by decide +kernel) (by decide)).mp (by decide +kernel)
example : OSVersionSays demoEnv demoLib demoUA demoFull (ascii "9") :=
  (C69_os_version (H := demoHash) (q := { ua := demoUA }) demo_package (demoLib_rulesOK _) (by decide +kernel) _).mp (by decide +kernel)
example : ModelSays demoEnv demoLib demoUA demoFull DeviceTypeAll (ascii "Pixel 4") :=
  (C70_model (H := demoHash) (q := { ua := demoUA }) demo_package (demoLib_rulesOK _) (by decide +kernel) demo_brands (by decide +kernel) _).mp
    (by decide +kernel)

example : BrandSays demoEnv demoLib demoUA (Demo.plainRe "Tab") (Demo.plainRe "Mob") demoFull DeviceTypeAll (ascii "Google") :=
  (C70_brand (H := demoHash) (q := { ua := demoUA }) demo_package (demoLib_rulesOK _) (by decide +kernel) demo_brands _).mp (by decide +kernel)
/-- Two vendors match. -/
example : BrandSays demoEnv demoLib (ascii "MAAR MDDR ;") (Demo.plainRe "Tab") (Demo.plainRe "Mob") demoFull DeviceTypeAll (ascii "Dell") :=
  (C70_brand (H := demoHash) (q := { ua := ascii "MAAR MDDR ;" }) demo_package (demoLib_rulesOK _) (by decide +kernel) demo_brands _).mp (by decide +kernel)
example : DeviceTypeSays demoEnv demoLib demoUA (Demo.plainRe "Tab") (Demo.plainRe "Mob") demoFull DeviceTypeAll DeviceTypeMobile :=
  (C70_device_type (H := demoHash) (q := { ua := demoUA }) demo_package (demoLib_rulesOK _) (by decide +kernel) demo_brands _).mp (by decide +kernel)
example : ClientTypeSays demoEnv demoLib demoUA demoFull ClientTypeAll ClientTypeBrowser :=
  (C68_client_type (H := demoHash) (q := { ua := demoUA }) demo_package (demoLib_rulesOK _) (by decide +kernel) _).mp (by decide +kernel)

theorem hintValue_mem {files : List (List (Bytes × Bytes))} {k v : Bytes} (h : hintValue files k = some v) : ∃ f ∈ files, ∃ x ∈ f, x.1 = k := by
  unfold hintValue at h
  obtain ⟨f, hf, hk⟩ := List.exists_of_findSome?_eq_some h
  refine ⟨f, hf, ?_⟩
  induction f with
  | nil => simp at hk
  | cons x f ih =>
    rw [List.lookup_cons] at hk
    split at hk
    · rename_i e
      exact ⟨x, List.mem_cons_self .., (by simpa using e : k = x.1).symm⟩
    · clear hf
      have : ∀ f : List (Bytes × Bytes), f.lookup k = some v → ∃ x ∈ f, x.1 = k := by
        intro f
        induction f with
        | nil => simp
        | cons y f ih =>
          intro h
          rw [List.lookup_cons] at h
          split at h
          · rename_i e
            exact ⟨y, List.mem_cons_self .., (by simpa using e : k = y.1).symm⟩
          · obtain ⟨z, h1, h2⟩ := ih h
            exact ⟨z, List.mem_cons_of_mem _ h1, h2⟩
      obtain ⟨z, h1, h2⟩ := this f hk
      exact ⟨z, List.mem_cons_of_mem _ h1, h2⟩

/-- Two files list the header: the first one counts. -/
example : uncached demoPackage demoHash .browser { ua := demoUA, header := ascii "org.a" } = some (.text (ascii "A")) := by
  refine C71_hint demo_package (demoLib_rulesOK _) (by decide +kernel) (by decide) (by decide +kernel) ?_ (by decide +kernel) (by decide)
  intro k v h e
  obtain ⟨f, hf, x, hx, rfl⟩ := hintValue_mem h
  exact (by decide +kernel : ∀ f ∈ demoFull.hint, ∀ x ∈ f, demoHash x.1 = demoHash (ascii "org.a") → x.1 = ascii "org.a") f hf x hx e

/-! ### What one might expect and does not hold -/

/-- C70, file order: the brand is that of the first matching rule in the order of the file. -/
def C70FileOrderClaim : Prop := ∀ (env : Env) (lib : Bytes → Re) (hash H : Bytes → UInt64) (r : Rules) (T : Tables) (q : Req),
  Package env lib hash r T → RulesOK env lib r q.ua → BrandsOK r → q.ua.length < 2 ^ 32 → ∀ d t s, DeviceRuleFirst env lib q.ua r q.md d t →
    uncached T H .brand q = some (.text s) → BrandCalled t.name s

/-- Two phone brands with the same pattern. -/
def twoBrands : Rules := { demoFull with
  device := demoFull.device.set 3 [{ name := ascii "Sony", regex := ascii "Phone" }, { name := ascii "Acme", regex := ascii "Phone" }] }

theorem twoBrands_rulesOK (u : Bytes) : RulesOK demoEnv demoLib twoBrands u :=
  { demoLib_rulesOK u with
    deviceFiles := by
      intro i hi
      have : ∀ i : Fin 8, (twoBrands.device[i.val]?).isSome = true ∧ ∀ f ∈ twoBrands.device[i.val]?, f ≠ [] := by decide +kernel
      obtain ⟨h1, h2⟩ := this ⟨i, hi⟩
      obtain ⟨f, hf⟩ := Option.isSome_iff_exists.mp h1
      exact ⟨f, hf, h2 f hf⟩
    models := by decide +kernel }

/-- C70, file order is refuted: the rule compiler sorts the brands. -/
theorem C70_file_order_refuted : ¬ C70FileOrderClaim := by
  intro h
  have hp : Package demoEnv demoLib demoHash twoBrands (packageOf demoHash twoBrands) := package_of (by decide +kernel) (by decide +kernel)
  have := h demoEnv demoLib demoHash demoHash twoBrands _ { ua := ascii "Phone", md := DeviceTypeMobile } hp (twoBrands_rulesOK _)
    ⟨by decide +kernel, by decide +kernel⟩ (by decide) DeviceTypeMobile { name := ascii "Sony", regex := ascii "Phone" } (ascii "Acme") ?_ (by decide +kernel)
  · rcases this with ⟨a, z, e, h1, h2⟩ | ⟨e, _⟩
    · have : Trimmed (ascii "Sony") (ascii "Sony") := ⟨0, 0, by decide, by decide, by decide⟩
      exact absurd (Trimmed.unique ⟨a, z, e, h1, h2⟩ this) (by decide)
    · exact absurd e (by decide)
  · refine ⟨deviceOrder.take 6, [(DeviceTypeNotebook, 4, DeviceTypeNotebook)], DeviceTypeMobile, 3, _, by decide, by decide, ?_, rfl, [], _, rfl, ?_, by simp⟩
    · intro x hx hm
      exact absurd ((by decide : ∀ x ∈ deviceOrder.take 6, DeviceTypeMobile &&& x.1 = 0) x hx) hm
    · exact .inl ⟨by rw [← isRegex_iff]; decide, by decide, [], [], by decide⟩

/-- C71 without a condition on the hash: headers that are not listed are unknown. -/
def C71Claim : Prop := ∀ (env : Env) (lib : Bytes → Re) (hash : Bytes → UInt64) (r : Rules) (T : Tables) (q : Req),
  Package env lib hash r T → RulesOK env lib r q.ua → q.ua.length < 2 ^ 32 → q.header ≠ [] → hash q.header ≠ 0 → hintValue r.hint q.header = none →
    uncached T hash .browser q = some (.text (ascii "UNK"))

/-- C71 without that condition is refuted: names are looked up by hash only, so a header can get the name of another one. -/
theorem C71_refuted : ¬ C71Claim := by
  intro h
  have hp : Package demoEnv demoLib (fun _ => 1) demoFull (packageOf (fun _ => 1) demoFull) := package_of (by decide +kernel) (by decide +kernel)
  have := h demoEnv demoLib (fun _ => 1) demoFull _ { ua := ascii "x", header := ascii "org.c" } hp (demoLib_rulesOK _) (by decide) (by decide) (by decide)
    (by decide +kernel)
  revert this
  decide +kernel

/-! ### Order and references -/

/-- C68–C70, the order of names and thresholds is the one of Go strings: `a` comes before `b` if it is a beginning of it or has the smaller
byte where they differ first. -/
theorem C70_order (a b : Bytes) :
    strGe b a = true ↔ a <+: b ∨ ∃ p x y a' b', a = p ++ x :: a' ∧ b = p ++ y :: b' ∧ x.toNat < y.toNat := by
  induction a generalizing b with
  | nil => cases b <;> simp [strGe]
  | cons x a ih =>
    cases b with
    | nil => simp [strGe]
    | cons y b =>
      simp only [strGe, Bool.or_eq_true, Bool.and_eq_true, decide_eq_true_eq, ih, UInt8.lt_iff_toNat_lt]
      constructor
      · rintro (h | ⟨rfl, h | ⟨p, x', y', a', b', rfl, rfl, h⟩⟩)
        · exact .inr ⟨[], x, y, a, b, rfl, rfl, h⟩
        · exact .inl (List.cons_prefix_cons.mpr ⟨rfl, h⟩)
        · exact .inr ⟨y :: p, x', y', a', b', rfl, rfl, h⟩
      · rintro (h | ⟨p, x', y', a', b', h1, h2, h⟩)
        · have := List.cons_prefix_cons.mp h
          exact .inr ⟨this.1.symm, .inl this.2⟩
        · cases p with
          | nil =>
            cases h1; cases h2
            exact .inl h
          | cons z p =>
            cases h1; cases h2
            exact .inr ⟨rfl, .inr ⟨p, x', y', a', b', rfl, rfl, h⟩⟩

theorem foldl_decVal (s : Bytes) (n : Nat) :
    s.foldl (fun n (c : UInt8) => 10 * n + (c.toNat - 48)) n = n * 10 ^ s.length + decVal s := by
  induction s generalizing n with
  | nil => simp [decVal]
  | cons c s ih =>
    rw [List.foldl_cons, ih, decVal, List.length_cons, Nat.pow_succ, Nat.add_mul, ← Nat.add_assoc]
    congr 2
    rw [Nat.mul_comm 10 n, Nat.mul_assoc, Nat.mul_comm 10]

theorem parseInt_dec {s : Bytes} (h : IsDec s) (hb : decVal s < 2 ^ 63) : parseInt s = ((decVal s : Int), true) := by
  have hd : parseDigits s = some (decVal s) := by
    cases s with
    | nil => exact absurd rfl h.1
    | cons c s =>
      have : (c :: s).all (fun c => decide (48 ≤ c) && decide (c ≤ 57)) = true := by
        refine List.all_eq_true.mpr fun x hx => ?_
        have := h.2 x hx
        simp only [Bool.and_eq_true, decide_eq_true_eq, UInt8.le_iff_toNat_le]
        exact this
      show (if (c :: s).all (fun c => decide (48 ≤ c) && decide (c ≤ 57)) = true then some _ else none) = _
      rw [if_pos this, foldl_decVal, Nat.zero_mul, Nat.zero_add]
  unfold parseInt
  split
  rename_i neg ds e
  have hne : ∀ c r, s = c :: r → 48 ≤ c.toNat := fun c r hs => (h.2 c (hs ▸ List.mem_cons_self ..)).1
  have : neg = false ∧ ds = s := by
    split at e
    · have := hne _ _ rfl
      exact absurd this (by decide)
    · have := hne _ _ rfl
      exact absurd this (by decide)
    · cases e
      exact ⟨rfl, rfl⟩
  obtain ⟨rfl, rfl⟩ := this
  rw [hd]
  simp [hb]

/-- C68, C69: `$7` refers to group 7: a numeral below 128 means the number it writes, in client and OS rules alike. -/
theorem C69_reference {s : Bytes} (h : IsDec s) (hb : decVal s < 128) :
    (clientIx s).toInt = (decVal s : Int) ∧ (osIx s).toInt = (decVal s : Int) := by
  have e := parseInt_dec h (by omega)
  have : (Int8.ofInt (decVal s : Int)).toInt = (decVal s : Int) := Int8.toInt_ofInt_of_le (by omega) (by omega)
  unfold clientIx osIx
  rw [e]
  exact ⟨this, by simpa using this⟩

example : IsDec (ascii "12") ∧ decVal (ascii "12") = 12 := by decide
end Verif.Compiler

import Verif.Proofs.ShippedNames
import Verif.Props.ShippedVersions
import Verif.Props.Model
/-
C83, C84, C85: the names answered, for the shipped tables and the modelled regexp library.
-/
namespace Verif

open Data Regexp Compiler

/-! ### C83 -/

/-- The client rules whose name is a template nobody fills in. -/
def templateClients : List Bytes :=
  [ascii "Podkicker( (?:Pro|Classic))?/([\\d.]+)",
   ascii "(?:Microsoft Office )?(Access|Excel|OneDrive for Business|OneNote|PowerPoint|Project|Publisher|Visio|Word)(?: 20\\d{2})?[ /]\\(?(\\d+\\.[\\d.]*)",
   ascii "^radio\\.([a-z]{2}|net)[ /]([\\d.]+)",
   ascii " ([a-z0-9]*)(?:-desktop|-electron-app)?/(\\d+\\.[\\d.]+).*Electron/",
   ascii "AppVersion/([\\d.]+).+appname/([^/; ]*)",
   ascii "([^/;]*)/(\\d+\\.[\\d.]+) \\((?:iPhone|iPad); (?:iOS|iPadOS) [0-9.]+; Scale/[0-9.]+\\)"]

theorem template_src {k : Nat} (hk : k ∈ crDollar) {c : List Chunk} (h : crRe[k]? = some c) : ∃ p ∈ templateClients, buf c = atWord p := by
  have : ∀ k ∈ crDollar, ((crRe[k]?).map buf).all (fun b => templateClients.any fun p => b == atWord p) = true := by decide +kernel
  have := this k hk
  rw [h] at this
  simp only [Option.map_some, Option.all_some, List.any_eq_true, beq_iff_eq] at this
  exact this

theorem unk_proper : Proper (ascii "UNK") := proper_of (by decide)

/-- C83, clients: with the shipped tables GetBrowser is a proper name, with and without header, unless the selected rule is one of the six. -/
theorem C83_partial {H : Bytes → UInt64} {q : Req} {s : Bytes} (h : uncached Regexp.lib.tables H .browser q = some (.text s)) :
    Proper s ∨ (q.header = [] ∨ H q.header = 0) ∧
      ∃ t v re p, ClientChosen Regexp.lib.tables q.mc q.ua t v ∧ Regexp.lib.tables.crRe[v.matchRI.toNat]? = some re ∧ p ∈ templateClients ∧ re.src = atWord p := by
  by_cases h0 : q.header = [] ∨ H q.header = 0
  · rw [C29_zero h0] at h
    rcases C23_client_name rfl h with ⟨t, v, n, h1, h2, h3⟩ | ⟨-, h3⟩
    · cases h3
      obtain ⟨a, z, i, rows, ho, -, -, h4, h5⟩ := id h1
      have hrow : crNameB v = true := by
        have hi : i ∈ [1, 2, 3, 4, 5, 6] := by
          have : (t, i) ∈ clientOrder := by rw [ho]; simp
          revert this
          simp only [clientOrder, List.mem_cons, Prod.mk.injEq, List.not_mem_nil, or_false]
          omega
        have : rows ∈ [crIdx1, crIdx2, crIdx3, crIdx4, crIdx5, crIdx6] := by
          have e : Regexp.lib.tables.crIdx = [crIdx0, crIdx1, crIdx2, crIdx3, crIdx4, crIdx5, crIdx6] := rfl
          rw [e] at h4
          simp only [List.mem_cons, List.not_mem_nil, or_false] at hi
          rcases hi with rfl | rfl | rfl | rfl | rfl | rfl <;> (cases h4; simp)
        exact List.all_eq_true.mp (crNames_ok rows this) v h5.mem.1
      unfold crNameB at hrow
      simp only [Bool.and_eq_true, bne_iff_ne, ne_eq, Bool.or_eq_true, Bool.not_eq_true', decide_eq_false_iff_not, List.contains_eq_mem, decide_eq_true_eq] at hrow
      obtain ⟨hz, hrow⟩ := hrow
      rcases h2 with ⟨h2, -⟩ | ⟨-, h2⟩
      · exact absurd h2 hz
      · rcases hrow with hp | ⟨hm, hk⟩
        · exact .inl (proper_text hp h2)
        · right
          obtain ⟨-, re, h6, -⟩ | ⟨h6, -⟩ := h5.mem.2
          · obtain ⟨c, hc, rfl⟩ : ∃ c, crRe[v.matchRI.toNat]? = some c ∧ Regexp.compile (buf c) = re := by
              have : (crRe.map fun p => Regexp.compile (buf p))[v.matchRI.toNat]? = some re := h6
              rw [List.getElem?_map] at this
              exact Option.map_eq_some_iff.mp this
            obtain ⟨p, hp, e⟩ := template_src hk hc
            exact ⟨h0, t, v, _, p, h1, h6, hp, e⟩
          · exact absurd h6 hm
    · cases h3
      exact .inl unk_proper
  · obtain ⟨hh, h0⟩ := not_or.mp h0
    left
    cases he : Regexp.lib.tables.hrIdx (H q.header) with
    | none => cases C29_unknown hh h0 he h; exact unk_proper
    | some e =>
      have hp : properN (textN hrBuf e) = true := by
        have he' : (mapOf hrIdx (H q.header)).map UInt64.ofNat = some e := he
        simp only [mapOf, Option.map_map, Option.map_eq_some_iff] at he'
        obtain ⟨x, hx, rfl⟩ := he'
        exact List.all_eq_true.mp hrNames_ok x (List.mem_of_find?_eq_some hx)
      obtain ⟨n, hn⟩ := hint_rows Regexp.lib _ _ he
      have hne : e ≠ 0 := by
        rintro rfl
        exact absurd hp (by decide)
      cases C29_known hh h0 he (.inr ⟨hne, hn⟩) h
      exact proper_text hp hn

/-- C83 for clients, without the exceptions. -/
def C83Claim : Prop := ∀ (H : Bytes → UInt64) (q : Req) (s : Bytes), uncached Regexp.lib.tables H .browser q = some (.text s) → Proper s

/-- C83 for clients, without the exceptions, is refuted: Podkicker Pro is "Podkicker$1". -/
theorem C83_refuted : ¬ C83Claim := by
  intro h
  have := (h (fun _ => 0) { ua := ascii "Podkicker Pro/3.0", mc := ClientTypeMobileApp } (ascii "Podkicker$1") (by decide +kernel)).2.1 36 (by decide)
  exact this.2.2 rfl

/-- A proper name. -/
example : uncached Regexp.lib.tables (fun _ => 0) .browser { ua := ascii "curl/7.1.", mc := ClientTypeLibrary } = some (.text (ascii "curl")) := by
  decide +kernel

/-- C83, brands: with the shipped tables GetBrand is a proper name. -/
theorem C83_brand {H : Bytes → UInt64} {q : Req} {s : Bytes} (h : uncached Regexp.lib.tables H .brand q = some (.text s)) : Proper s := by
  obtain ⟨s', e, h⟩ := C41_brand h
  cases e
  have fin : ∀ {cs : List Chunk} {e : Entry64}, (e != 0 && properN (textN cs e)) = true → BrandAt (buf cs) e s → Proper s := by
    intro cs e h hb
    simp only [Bool.and_eq_true, bne_iff_ne, ne_eq] at h
    rcases hb with ⟨h1, -⟩ | ⟨-, raw, h1, h2⟩
    · exact absurd h1 h.1
    · have hp := proper_text h.2 h1
      rw [hp.trimmed h2]
      exact hp
  rcases h with ⟨d, v, h1, h2⟩ | ⟨-, -, rfl⟩ | ⟨-, -, -, ⟨v, h1, h2⟩ | ⟨-, rfl⟩⟩
  · obtain ⟨a, z, b, i, rows, -, -, -, h4, h5⟩ := h1
    have := List.all_eq_true.mp (drNames_ok rows (List.mem_of_getElem? h4)) v h5.mem.1
    exact fin (cs := drBuf) this h2
  · exact unk_proper
  · have hv : v ∈ vrIdx := by
      obtain ⟨a, z, e, -⟩ := h1
      have e : vrIdx = a ++ v :: z := e
      rw [e]; simp
    exact fin (cs := vrBuf) (List.all_eq_true.mp vrNames_ok v hv) h2
  · exact unk_proper

/-- A brand by the shipped tables. -/
example : uncached Regexp.lib.tables (fun _ => 0) .brand { ua := ascii "Mozilla MAAR)", md := 0 } = some (.text (ascii "Acer")) := by
  decide +kernel

/-! ### C84 -/

theorem toNat_ofNat_map (t : Bytes) : (t.map UInt8.toNat).map UInt8.ofNat = t := by
  rw [List.map_map]
  have : (UInt8.ofNat ∘ UInt8.toNat) = id := by funext c; simp
  rw [this, List.map_id]

theorem engine_text {e : Entry64} (h : engineB e = true) {t : Bytes} (ht : Text Regexp.lib.tables.crBuf e t) : t = [] ∨ t ∈ renderEngines := by
  unfold engineB at h
  rw [textN_eq ht, toNat_ofNat_map] at h
  simp only [Bool.or_eq_true, List.isEmpty_iff, List.map_eq_nil_iff, List.contains_eq_mem, decide_eq_true_eq] at h
  exact h

/-- C84, engines: with the shipped tables GetEngine is one of 21 names or empty. -/
theorem C84_engine {H : Bytes → UInt64} {q : Req} (hl : q.ua.length < 2 ^ 32) {s : Bytes}
    (h : uncached Regexp.lib.tables H .engine q = some (.text s)) : s = [] ∨ s ∈ renderEngines := by
  have hsafe : ChosenWF Regexp.lib.tables q.mc q.ua := by
    refine chosen_wf _ fun t v hc hv => ?_
    rw [C27_panics (H := H) _ hc hv (g := .engine) rfl] at h
    cases h
  obtain ⟨s', ha, hs⟩ := C55_engine (H := H) (shipped_wfbase Regexp.lib q.ua) hsafe hl
  rw [h] at ha
  cases ha
  have hall := crEngines_ok
  simp only [Bool.and_eq_true] at hall
  obtain ⟨⟨k0, k1⟩, k2⟩ := hall
  rcases hs with ⟨v, e, hc, he, ⟨h0, ht⟩ | ⟨-, rfl⟩⟩ | ⟨-, rfl⟩ | ⟨-, rfl⟩
  · refine engine_text ?_ ht
    have hv : v ∈ crIdx1 := by
      obtain ⟨a, z, i, rows, ho, -, -, h4, h5⟩ := id hc
      have hi : i = 1 := by
        have : (ClientTypeBrowser, i) ∈ clientOrder := by rw [ho]; simp
        exact (clientOrder_ne this).2.mpr rfl
      subst hi
      have : rows = crIdx1 := (Option.some.inj h4).symm
      rw [← this]
      exact h5.mem.1
    cases he with
    | own h _ =>
      cases h with
      | const h => exact List.all_eq_true.mp k1 v hv
      | @fn raw m f h hv hm hf =>
        have hf : (crEf.map EngineFn.run)[v.engineFI.toNat]? = some f := hf
        rw [List.getElem?_map] at hf
        obtain ⟨g, hg, rfl⟩ := Option.map_eq_some_iff.mp hf
        have := List.all_eq_true.mp k2 g (List.mem_of_getElem? hg)
        rw [Bool.and_eq_true] at this
        unfold EngineFn.run
        split
        · rename_i x hx
          exact List.all_eq_true.mp this.2 x (List.mem_of_find?_eq_some hx)
        · exact this.1
    | @first rows w h hr hf =>
      have : rows = crIdx0 := (Option.some.inj hr).symm
      exact List.all_eq_true.mp k0 w (this ▸ hf.mem.1)
    | none => exact absurd rfl h0
  · split
    · exact .inr (by decide)
    · exact .inl rfl
  · exact .inl rfl
  · exact .inl rfl

/-- C84, operating systems: with the shipped tables GetOS is "UNK" if no rule applies; otherwise one of the names in the rules, or one of 19
distributions as the user agent writes it, in some case. -/
theorem C84_os {H : Bytes → UInt64} {q : Req} (hl : q.ua.length < 2 ^ 32) {s : Bytes} (h : uncached Regexp.lib.tables H .os q = some (.text s)) :
    (OSNone Regexp.lib.tables q.ua ∧ s = ascii "UNK") ∨
    ((∃ x, OSChosen Regexp.lib.tables q.ua x) ∧ (s ∈ osNames ∨ (s <:+: q.ua ∧ ∃ n ∈ distroNames, Written (n.map UInt8.toNat) s))) := by
  obtain ⟨s', ha, hs⟩ := C53_os (H := H) (shipped_wfdev Regexp.lib q.ua) hl
  rw [h] at ha
  cases ha
  rcases hs with h | ⟨x, raw, hc, hn, ht⟩
  · exact .inl h
  have hx := List.all_eq_true.mp orNames_ok x hc.mem.1
  unfold osNameB at hx
  simp only [Bool.or_eq_true, Bool.and_eq_true, decide_eq_true_eq, List.contains_eq_mem, Bool.not_eq_true', decide_eq_false_iff_not] at hx
  refine .inr ⟨⟨x, hc⟩, ?_⟩
  have hcase : (x.nameSI = -1 ∧ osNames.contains ((textN orBuf x.name64).map UInt8.ofNat) = true) ∨
      ∃ c, x.nameSI = 1 ∧ orRe[x.matchRI.toNat]? = some c ∧ distroB c = true ∧ 0 ≤ x.matchRI ∧ (Regexp.compile (buf c)).isMatch q.ua = true ∧
        Regexp.lib.tables.orRe[x.matchRI.toNat]? = some (Regexp.compile (buf c)) := by
    rcases hx with ⟨h1, h2⟩ | ⟨⟨h1, h2⟩, h3⟩
    · exact .inl ⟨h1, by simpa using h2⟩
    · right
      obtain ⟨-, re, h6, h7⟩ | ⟨h6, -⟩ := hc.mem.2.1
      · obtain ⟨c, hc', rfl⟩ : ∃ c, orRe[x.matchRI.toNat]? = some c ∧ Regexp.compile (buf c) = re := by
          have : (orRe.map fun p => Regexp.compile (buf p))[x.matchRI.toNat]? = some re := h6
          rw [List.getElem?_map] at this
          exact Option.map_eq_some_iff.mp this
        have := distros_ok _ h3
        rw [hc'] at this
        exact ⟨c, h1, hc', this, by omega, h7, h6⟩
      · exact absurd h6 h2
  rcases hcase with ⟨h1, h2⟩ | ⟨c, h1, h2, h3, h4, h5, h6⟩
  · left
    cases hn with
    | group _ h => exact absurd h1 h
    | const _ h =>
      have hraw : raw ∈ osNames := by
        rw [textN_eq h, toNat_ofNat_map] at h2
        exact List.contains_iff_mem.mp h2
      have hp : Proper raw := proper_of ((by decide +kernel : ∀ r ∈ osNames, properN (r.map UInt8.toNat) = true) raw hraw)
      rcases ht with ht | ⟨rfl, -⟩
      · rw [hp.trimmed ht]
        exact hraw
      · exact absurd rfl hp.1
  · right
    unfold distroB at h3
    rw [Bool.and_eq_true] at h3
    obtain ⟨hg, h3⟩ := h3
    cases hrx : parse (buf c) with
    | none => rw [hrx] at h3; cases h3
    | some rx =>
      rw [hrx] at h3
      simp only [Bool.and_eq_true, List.all_eq_true] at h3
      have e1 : x.nameSI.toInt.toNat = 1 := by rw [h1]; rfl
      cases hn with
      | @const _ h0 h =>
        exfalso
        rcases h0 with h0 | h0 | ⟨re, h0, h0'⟩
        · omega
        · rw [h1] at h0; exact absurd h0 (by decide)
        · rw [h6] at h0
          cases h0
          obtain ⟨t, ht⟩ := must_captured hrx (Nat.le_refl 1) (Nat.le_of_ble_eq_true hg) h3.1 h5
          rw [e1] at h0'
          exact h0' t ht
      | @group re _ h0 _ hre hcap =>
        rw [h6] at hre
        cases hre
        rw [e1] at hcap
        obtain ⟨w, g1, g2, g3⟩ := captured_word hrx (Nat.le_refl 1) (W := distroNames.map fun n => n.map UInt8.toNat) (by
          intro y hy
          have := h3.2 y hy
          cases hw : words y with
          | none => rw [hw] at this; cases this
          | some ws =>
            rw [hw] at this
            exact ⟨ws, rfl, fun w hw => List.contains_iff_mem.mp (List.all_eq_true.mp this w hw)⟩) hcap
        obtain ⟨n, hn, rfl⟩ := List.mem_map.mp g1
        replace ht : Trimmed raw s := ht.resolve_right fun h => by
          have := g3.empty g2 h.1
          exact (by decide : ∀ n ∈ distroNames, n.map UInt8.toNat ≠ []) n hn this
        have hw : (n.map UInt8.toNat).head? ≠ some 32 ∧ (n.map UInt8.toNat).getLast? ≠ some 32 :=
          (by decide : ∀ n ∈ distroNames, (n.map UInt8.toNat).head? ≠ some 32 ∧ (n.map UInt8.toNat).getLast? ≠ some 32) n hn
        have e : s = raw := by
          obtain ⟨a, z, e, -, -⟩ := ht
          have ha : a = 0 := by
            rcases a with _ | a
            · rfl
            · exact absurd (g3.head g2 (by rw [e, List.replicate_succ]; rfl)) hw.1
          have hz : z = 0 := by
            rcases z with _ | z
            · rfl
            · exact absurd (g3.last g2 (by rw [e, List.replicate_succ', ← List.append_assoc, List.getLast?_concat])) hw.2
          subst ha hz
          rw [e]; simp
        rw [e]
        obtain ⟨m, a, z, -, hu, -⟩ := hcap
        exact ⟨⟨a, z, hu.symm⟩, n, hn, g3⟩

/-- C84, the converse: every name of the list is the name of a rule. -/
theorem C84_os_names : ∀ n ∈ osNames, ∃ x ∈ Regexp.lib.tables.orOs, x.nameSI = -1 ∧ Text Regexp.lib.tables.orBuf x.name64 n := by
  intro n hn
  have hall : (osNames.all fun n => (orOs.map fun x => (decide (x.nameSI = -1) , textN orBuf x.name64)).contains (true, n.map UInt8.toNat)) = true := by decide +kernel
  have := List.all_eq_true.mp hall n hn
  simp only [List.contains_eq_mem, decide_eq_true_eq, List.mem_map, Prod.mk.injEq] at this
  obtain ⟨x, h1, h2, h3⟩ := this
  obtain ⟨t, ht⟩ := ((os_rows Regexp.lib []).2 x h1).name
  rw [textN_eq ht] at h3
  rw [← map_toNat_inj h3]
  exact ⟨x, h1, h2, ht⟩

/-- C84, desktops: of the names that count as desktop systems, four are never answered by GetOS. -/
theorem C84_desktop {H : Bytes → UInt64} {q : Req} (hl : q.ua.length < 2 ^ 32) {s : Bytes} (h : uncached Regexp.lib.tables H .os q = some (.text s)) :
    s ≠ ascii "IBM" ∧ s ≠ ascii "Unix" ∧ s ≠ ascii "Chromium OS" ∧ s ≠ ascii "OS ROSA" := by
  have key : ∀ d ∈ [ascii "IBM", ascii "Unix", ascii "Chromium OS", ascii "OS ROSA"], s ≠ d := by
    rintro d hd rfl
    rcases C84_os hl h with ⟨-, h⟩ | ⟨-, h | ⟨-, n, h1, h2⟩⟩
    · exact (by decide : ∀ d ∈ [ascii "IBM", ascii "Unix", ascii "Chromium OS", ascii "OS ROSA"], d ≠ ascii "UNK") s hd h
    · exact (by decide +kernel : ∀ d ∈ [ascii "IBM", ascii "Unix", ascii "Chromium OS", ascii "OS ROSA"], d ∉ osNames) s hd h
    · have h3 := h2.can (by
          intro c hc
          obtain ⟨b, hb, rfl⟩ := List.mem_map.mp hc
          exact (by decide +kernel : ∀ n ∈ distroNames, ∀ b ∈ n, b.toNat < 128) n h1 b hb)
        ((by decide : ∀ d ∈ [ascii "IBM", ascii "Unix", ascii "Chromium OS", ascii "OS ROSA"], ∀ b ∈ d, b.toNat < 128) s hd)
      have := (by decide +kernel : ∀ d ∈ [ascii "IBM", ascii "Unix", ascii "Chromium OS", ascii "OS ROSA"], ∀ n ∈ distroNames, canB (n.map UInt8.toNat) d = false) s hd n h1
      rw [h3] at this
      cases this
  exact ⟨key _ (by decide), key _ (by decide), key _ (by decide), key _ (by decide)⟩

/-- The other desktop names are names of rules. -/
example : (desktopNames.filter fun d => !osNames.contains d) = [ascii "IBM", ascii "Unix", ascii "Chromium OS", ascii "OS ROSA"] := by decide +kernel

/-- A name captured in the user agent's own case. -/
example : Written ((ascii "SUSE").map UInt8.toNat) (ascii "suse") ∧ Written ((ascii "SUSE").map UInt8.toNat) ([0xC5, 0xBF] ++ ascii "use") :=
  ⟨.cons (r := 115) (by decide) (.cons (r := 117) (by decide) (.cons (r := 115) (by decide) (.cons (r := 101) (by decide) .nil))),
   .cons (r := 0x17F) (by decide) (.cons (r := 117) (by decide) (.cons (r := 115) (by decide) (.cons (r := 101) (by decide) .nil)))⟩

/-! ### C85 -/

theorem captures_infix {re : Re} {u g : Bytes} {i : Nat} (h : Captures re u i g) : g <:+: u := by
  obtain ⟨m, a, z, -, h, -⟩ := h
  exact ⟨a, z, h.symm⟩

theorem expands_dollar {re : Re} {u r t : Bytes} (hu : 36 ∉ u) (h : Expands re u r t) : 36 ∉ t := by
  have cap : ∀ {i g}, Captures re u i g → 36 ∉ g := fun h hm => hu ((captures_infix h).subset hm)
  induction h with
  | nil | stop => simp
  | char hb _ ih => rw [List.mem_cons, not_or]; exact ⟨fun e => hb e.symm, ih⟩
  | group _ hg _ ih => rw [List.mem_append, not_or]; exact ⟨cap hg, ih⟩
  | dollar hg _ ih => rw [List.mem_append, not_or]; exact ⟨cap hg, ih⟩

theorem plain_text {e : Entry64} (h : (!(textN drBuf e).contains 36) = true) {t : Bytes} (ht : Text Regexp.lib.tables.drBuf e t) : 36 ∉ t := by
  rw [textN_eq ht] at h
  simp only [Bool.not_eq_true', List.contains_eq_mem, decide_eq_false_iff_not] at h
  exact fun hm => h (List.mem_map.mpr ⟨36, hm, rfl⟩)

/-- C85: with the shipped tables GetModel has no dollar sign unless the user agent has one: every template is filled in. -/
theorem C85_model {H : Bytes → UInt64} {q : Req} (hl : q.ua.length < 2 ^ 26) (hu : 36 ∉ q.ua) {s : Bytes}
    (h : uncached Regexp.lib.tables H .model q = some (.text s)) : 36 ∉ s := by
  obtain ⟨mo, s', h1, h2, h3⟩ := C32_model (H := H) (q := q) (shipped_wfdev Regexp.lib _) (by omega) (shipped_bound _ hl)
  rw [h] at h3
  cases h3
  have hmo : 36 ∉ mo.getD [] := by
    rcases h1 with ⟨d, v, typ, hc, hr⟩ | ⟨-, rfl⟩
    · obtain ⟨a, z, b, i, rows, -, -, -, h4, h5⟩ := hc
      have hs := List.all_eq_true.mp (singles_plain rows (List.mem_of_getElem? h4)) v h5.mem.1
      cases hr with
      | @single sm raw t typ g1 g0 hm hr ht hy =>
        rcases ht with ⟨-, re, -, ht⟩ | ⟨ht, rfl⟩
        · exact expands_dollar hu ht
        · unfold singlePlainB at hs
          have hm : drDm[v.modelSI.toNat]? = some sm := hm
          simp only [ht, decide_true, Bool.not_true, Bool.false_or, Bool.or_eq_true, Bool.and_eq_true, decide_eq_true_eq] at hs
          rcases hs with hs | ⟨hb, hs⟩
          · omega
          · rw [drDm_get (blt_lt hb)] at hm
            rw [hm] at hs
            exact plain_text hs hr
      | @model w raw t typ g1 g0 hm hr ht hy =>
        rcases ht with ⟨-, re, -, ht⟩ | ⟨ht, rfl⟩
        · exact expands_dollar hu ht
        · have hw : w ∈ drDm := List.mem_of_mem_drop (List.mem_of_mem_take hm.mem.1)
          have := List.all_eq_true.mp drDm_plain w hw
          unfold dmPlainB at this
          simp only [ht, decide_true, Bool.not_true, Bool.false_or, Bool.or_eq_true] at this
          rcases this with this | this
          · exfalso
            obtain ⟨h6, -⟩ | ⟨-, lit, h6, ⟨a, z, -, h7, h8⟩, -⟩ := hm.mem.2
            · omega
            · have := Nat.eq_of_beq_eq_true this
              have : lit.length = 0 := by omega
              exact h6 (List.length_eq_zero_iff.mp this)
          · exact plain_text this hr
      | noModel | plain => simp
    · simp
  obtain ⟨a, z, e, -, -⟩ := h2
  intro hm
  refine hmo ?_
  rw [e]
  simp [hm]

/-- A model put together from the user agent. -/
example : uncached Regexp.lib.tables (fun _ => 0) .model { ua := ascii "Archos GAMEPAD2", md := DeviceTypeConsole } = some (.text (ascii "Gamepad 2")) ∧
    36 ∉ ascii "Archos GAMEPAD2" := ⟨by decide +kernel, by decide⟩

end Verif

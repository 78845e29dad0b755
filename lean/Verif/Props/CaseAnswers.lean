import Verif.Proofs.CaseAnswers
import Verif.Props.Case
import Verif.Props.OS
import Verif.Props.Device
import Verif.Props.Consistent
import Verif.Props.VersionGetters
/-
C65, all getters: what the answers about two spellings of a user agent have in common.
-/
namespace Verif

open Data

/-- The answers are the same but for the case of letters in texts. -/
def AnsAlike : Ans → Ans → Prop
  | .text a, .text b => CaseEq a b
  | .clientType a, .clientType b => a = b
  | .deviceType a, .deviceType b => a = b
  | .version a, .version b => VersionAlike a b
  | _, _ => False

section
variable {T : Tables} {H : Bytes → UInt64} {q : Req} {u' : Bytes}

/-- The request for the other spelling. -/
abbrev Req.spelled (q : Req) (u' : Bytes) : Req := { q with ua := u' }

theorem engine_text_same (A : Alike T q.ua u') (hw : WFbase T q.ua) (hw' : WFbase T u') (hg : ChosenWF T q.mc q.ua) (hg' : ChosenWF T q.mc u')
    (hl : q.ua.length < 2 ^ 32) : ∃ s, uncached T H .engine q = some (.text s) ∧ uncached T H .engine (q.spelled u') = some (.text s) := by
  have hl' : u'.length < 2 ^ 32 := by rw [← A.eq.length]; exact hl
  obtain ⟨s, h1, h2⟩ := C55_engine (H := H) hw hg hl
  obtain ⟨s', h1', h2'⟩ := C55_engine (H := H) (q := q.spelled u') hw' hg' hl'
  refine ⟨s, h1, ?_⟩
  rw [h1']
  have : s' = s := by
    rcases h2 with ⟨v, e, k1, k2, k3⟩ | ⟨⟨t, v, k1, k2⟩, rfl⟩ | ⟨k1, rfl⟩
    · rcases h2' with ⟨v', e', k1', k2', k3'⟩ | ⟨⟨t, v', k1', k2'⟩, -⟩ | ⟨k1', -⟩
      · obtain ⟨-, rfl⟩ := (A.clientChosen k1).unique k1'
        obtain rfl := (A.engineOf k2).unique k2'
        rcases k3 with ⟨k3, k4⟩ | ⟨k3, rfl⟩ <;> rcases k3' with ⟨k3', k4'⟩ | ⟨k3', rfl⟩
        · exact k4'.unique k4
        · exact absurd k3' k3
        · exact absurd k3 k3'
        · show (if T.forceBlink.isMatch u' then _ else _) = _
          rw [A.blink]
      · exact absurd ((A.clientChosen k1).unique k1').1.symm k2'
      · exact absurd k1' (A.clientChosen k1).not_none
    · rcases h2' with ⟨v', e', k1', k2', k3'⟩ | ⟨-, rfl⟩ | ⟨-, rfl⟩
      · exact absurd ((A.clientChosen k1).unique k1').1 k2
      · rfl
      · rfl
    · rcases h2' with ⟨v', e', k1', k2', k3'⟩ | ⟨-, rfl⟩ | ⟨-, rfl⟩
      · exact absurd (A.clientNone k1) k1'.not_none
      · rfl
      · rfl
  rw [this]

theorem engine_version_same (A : Alike T q.ua u') (hw : WFbase T q.ua) (hw' : WFbase T u') (hg : ChosenWF T q.mc q.ua) (hg' : ChosenWF T q.mc u')
    (hl : q.ua.length < 2 ^ 32) : ∃ s s', uncached T H .engineVersionString q = some (.text s) ∧
      uncached T H .engineVersionString (q.spelled u') = some (.text s') ∧ CaseEq s s' := by
  have hl' : u'.length < 2 ^ 32 := by rw [← A.eq.length]; exact hl
  obtain ⟨s, h1, h2⟩ := C56_engine_version (H := H) hw hg hl
  obtain ⟨s', h1', h2'⟩ := C56_engine_version (H := H) (q := q.spelled u') hw' hg' hl'
  refine ⟨s, s', h1, h1', ?_⟩
  rcases h2 with ⟨v, e, k1, k2, k3⟩ | ⟨⟨t, v, k1, k2⟩, rfl⟩ | ⟨k1, rfl⟩
  · rcases h2' with ⟨v', e', k1', k2', k3'⟩ | ⟨⟨t, v', k1', k2'⟩, -⟩ | ⟨k1', -⟩
    · obtain ⟨-, rfl⟩ := (A.clientChosen k1).unique k1'
      obtain rfl := (A.engineOf k2).unique k2'
      obtain ⟨s'', k4, k5⟩ := A.engineVersionText k3
      rwa [k4.unique k3'] at k5
    · exact absurd ((A.clientChosen k1).unique k1').1.symm k2'
    · exact absurd k1' (A.clientChosen k1).not_none
  · rcases h2' with ⟨v', e', k1', k2', k3'⟩ | ⟨-, rfl⟩ | ⟨-, rfl⟩
    · exact absurd ((A.clientChosen k1).unique k1').1 k2
    · rfl
    · rfl
  · rcases h2' with ⟨v', e', k1', k2', k3'⟩ | ⟨-, rfl⟩ | ⟨-, rfl⟩
    · exact absurd (A.clientNone k1) k1'.not_none
    · rfl
    · rfl

theorem browser_version_same (A : Alike T q.ua u') (hw : WFbase T q.ua) (hw' : WFbase T u') (hg : ChosenWF T q.mc q.ua) (hg' : ChosenWF T q.mc u')
    (hl : q.ua.length < 2 ^ 32) : ∃ s s', uncached T H .browserVersionString q = some (.text s) ∧
      uncached T H .browserVersionString (q.spelled u') = some (.text s') ∧ CaseEq s s' := by
  have hl' : u'.length < 2 ^ 32 := by rw [← A.eq.length]; exact hl
  obtain ⟨s, h1, -, h2⟩ := C30_shape (H := H) hw hg hl
  obtain ⟨s', h1', -, h2'⟩ := C30_shape (H := H) (q := q.spelled u') hw' hg' hl'
  refine ⟨s, s', h1, h1', ?_⟩
  rcases h2 with ⟨k1, rfl⟩ | ⟨t, v, raw, k1, k2, k3⟩
  · rcases h2' with ⟨-, rfl⟩ | ⟨t', v', raw', k1', -, -⟩
    · rfl
    · exact absurd (A.clientNone k1) k1'.not_none
  · rcases h2' with ⟨k1', -⟩ | ⟨t', v', raw', k1', k2', k3'⟩
    · exact absurd k1' (A.clientChosen k1).not_none
    · obtain ⟨-, rfl⟩ := (A.clientChosen k1).unique k1'
      obtain ⟨r, k4, k5⟩ := A.clientVersion k2
      rw [k4.unique k2'] at k5
      obtain ⟨s'', k6, k7⟩ := k5.cleaned k3
      rwa [k6.unique k3'] at k7

theorem client_type_same (A : Alike T q.ua u') {a a' : Ans} (h : uncached T H .clientType q = some a) (h' : uncached T H .clientType (q.spelled u') = some a') :
    a = a' := by
  obtain ⟨t, v, k1, rfl⟩ | ⟨k1, rfl⟩ := C23_client_type h <;> obtain ⟨t', v', k1', rfl⟩ | ⟨k1', rfl⟩ := C23_client_type h'
  · rw [((A.clientChosen k1).unique k1').1]
  · exact absurd k1' (A.clientChosen k1).not_none
  · exact absurd (A.clientNone k1) k1'.not_none
  · rfl

theorem browser_same (A : Alike T q.ua u') {a a' : Ans} (h : uncached T H .browser q = some a) (h' : uncached T H .browser (q.spelled u') = some a') : a = a' := by
  by_cases h0 : q.header = [] ∨ H q.header = 0
  · rw [C29_zero h0] at h
    rw [C29_zero (q := q.spelled u') h0] at h'
    obtain ⟨t, v, n, k1, k2, rfl⟩ | ⟨k1, rfl⟩ := C23_client_name (q := { q with header := [] }) rfl h <;>
      obtain ⟨t', v', n', k1', k2', rfl⟩ | ⟨k1', rfl⟩ := C23_client_name (q := { q.spelled u' with header := [] }) rfl h'
    · obtain ⟨-, rfl⟩ := (A.clientChosen k1).unique k1'
      rcases k2 with ⟨k2, rfl⟩ | ⟨k2, k3⟩ <;> rcases k2' with ⟨k2', rfl⟩ | ⟨k2', k3'⟩
      · rfl
      · exact absurd k2 k2'
      · exact absurd k2' k2
      · rw [k3.unique k3']
    · exact absurd k1' (A.clientChosen k1).not_none
    · exact absurd (A.clientNone k1) k1'.not_none
    · rfl
  · rw [uncached_eq _ (by decide)] at h h'
    simp only [outAns, Option.map_eq_some_iff, Option.bind_eq_some_iff] at h h'
    obtain ⟨n, ⟨g, -, h1⟩, rfl⟩ := h
    obtain ⟨n', ⟨g', -, h1'⟩, rfl⟩ := h'
    have hq : q.hint H ≠ 0 := by
      have h0 : q.header ≠ [] ∧ H q.header ≠ 0 := ⟨fun e => h0 (.inl e), fun e => h0 (.inr e)⟩
      rw [Req.hint, if_neg h0.1]; exact h0.2
    have hq' : (q.spelled u').hint H = q.hint H := rfl
    rw [hq'] at h1'
    simp only [browserText, if_pos hq] at h1 h1'
    rw [h1] at h1'
    cases h1'
    rfl

theorem os_version_same (A : Alike T q.ua u') (hw : WFdev T q.ua) (hw' : WFdev T u') (hl : q.ua.length < 2 ^ 32) :
    ∃ s s', uncached T H .osVersionString q = some (.text s) ∧ uncached T H .osVersionString (q.spelled u') = some (.text s') ∧ CaseEq s s' := by
  have hl' : u'.length < 2 ^ 32 := by rw [← A.eq.length]; exact hl
  obtain ⟨s, h1, -, h2⟩ := C31_shape (H := H) (q := q) hw hl
  obtain ⟨s', h1', -, h2'⟩ := C31_shape (H := H) (q := q.spelled u') hw' hl'
  refine ⟨s, s', h1, h1', ?_⟩
  have key : ∀ {raw s : Bytes}, s.length = raw.length → (∀ (i : Nat) b, raw[i]? = some b → s[i]? = some (if b = 95 then 46 else b)) →
      s = raw.map fun b => if b = 95 then 46 else b := by
    intro raw s h1 h2
    refine List.ext_getElem? fun i => ?_
    rw [List.getElem?_map]
    cases hb : raw[i]? with
    | none =>
      rw [Option.map_none, List.getElem?_eq_none_iff]
      rw [List.getElem?_eq_none_iff] at hb
      omega
    | some b => exact h2 i b hb
  rcases h2 with ⟨k1, rfl⟩ | ⟨x, raw, k1, k2, k3, k4⟩
  · rcases h2' with ⟨-, rfl⟩ | ⟨x', raw', k1', -, -⟩
    · rfl
    · exact absurd (A.osNone k1) k1'.not_none
  · rcases h2' with ⟨k1', -⟩ | ⟨x', raw', k1', k2', k3', k4'⟩
    · exact absurd k1' (A.osChosen k1).not_none
    · obtain rfl := (A.osChosen k1).unique k1'
      obtain ⟨r, k5, k6⟩ := A.osVersionText k2
      rw [k5.unique k2'] at k6
      rw [key k3 k4, key k3' k4']
      clear k2 k2' k3 k3' k4 k4' k5
      induction raw generalizing raw' with
      | nil => rw [k6.nil_left]; rfl
      | cons a l ih =>
        obtain ⟨a', l', rfl, e1, e2⟩ := k6.cons_left
        refine CaseEq.cons ?_ (ih _ e2)
        have n95 : NoLetter 95 := by unfold NoLetter; decide
        by_cases ha : a = 95
        · subst ha; rw [lower_fixed e1 n95]
        · have ha' : a' ≠ 95 := fun h => ha (by subst h; exact lower_fixed e1.symm n95)
          simp only [if_neg ha, if_neg ha']
          exact e1

theorem model_same (A : Alike T q.ua u') (hw : WFdev T q.ua) (hw' : WFdev T u') (hl : q.ua.length < 2 ^ 32) (hb : modelBound T q.ua < 2 ^ 32) :
    ∃ s s', uncached T H .model q = some (.text s) ∧ uncached T H .model (q.spelled u') = some (.text s') ∧ CaseEq s s' := by
  have hl' : u'.length < 2 ^ 32 := by rw [← A.eq.length]; exact hl
  obtain ⟨mo, s, h1, h2, h3⟩ := C32_model (H := H) (q := q) hw hl hb
  obtain ⟨mo', s', h1', h2', h3'⟩ := C32_model (H := H) (q := q.spelled u') hw' hl' (by unfold modelBound at *; rw [← A.eq.length]; exact hb)
  obtain ⟨mo'', h4, h5⟩ := A.modelIs h1
  rw [h4.unique h1'] at h5
  obtain ⟨s'', h6, h7⟩ := h5.trimmed h2
  rw [h6.unique h2'] at h7
  exact ⟨s, s', h3, h3', h7⟩

theorem BrandAt.unique {buf : Bytes} {e : Entry64} {s s' : Bytes} (h : BrandAt buf e s) (h' : BrandAt buf e s') : s = s' := by
  rcases h with ⟨h1, rfl⟩ | ⟨h1, raw, h2, h3⟩ <;> rcases h' with ⟨h1', rfl⟩ | ⟨h1', raw', h2', h3'⟩
  · rfl
  · exact absurd h1 h1'
  · exact absurd h1' h1
  · obtain rfl := h2.unique h2'
    exact h3.unique h3'

theorem brand_same (A : Alike T q.ua u') {a a' : Ans} (h : uncached T H .brand q = some a) (h' : uncached T H .brand (q.spelled u') = some a') : a = a' := by
  obtain ⟨s, rfl, h1⟩ := C41_brand h
  obtain ⟨s', rfl, h1'⟩ := C41_brand h'
  have et := A.tablet
  have em := A.mobile
  have : s = s' := by
    rcases h1 with ⟨d, v, k1, k2⟩ | ⟨k1, k2, rfl⟩ | ⟨k1, k2, k3, k4⟩
    · rcases h1' with ⟨d', v', k1', k2'⟩ | ⟨k1', -⟩ | ⟨k1', -⟩
      · obtain ⟨-, rfl⟩ := (A.deviceChosen k1).unique k1'
        exact k2.unique k2'
      · exact absurd k1' (A.deviceChosen k1).not_none
      · exact absurd k1' (A.deviceChosen k1).not_none
    · rcases h1' with ⟨d', v', k1', k2'⟩ | ⟨k1', -, rfl⟩ | ⟨k1', k2', k3', -⟩
      · exact absurd (A.deviceNone k1) k1'.not_none
      · rfl
      · have k2' : T.forceTablet.isMatch u' = false := k2'
        have k3' : T.forceMobile.isMatch u' = false := k3'
        rw [et, em, k2', k3'] at k2
        simp at k2
    · rcases h1' with ⟨d', v', k1', k2'⟩ | ⟨k1', k2', -⟩ | ⟨k1', -, -, k4'⟩
      · exact absurd (A.deviceNone k1) k1'.not_none
      · have k2' : T.forceTablet.isMatch u' = true ∨ T.forceMobile.isMatch u' = true := k2'
        rw [← et, ← em, k2, k3] at k2'
        simp at k2'
      · rcases k4 with ⟨v, k4, k5⟩ | ⟨k4, rfl⟩ <;> rcases k4' with ⟨v', k4', k5'⟩ | ⟨k4', rfl⟩
        · obtain rfl := (k4.same fun _ _ => A.vendorMatch).unique k4'
          exact k5.unique k5'
        · obtain ⟨x, z, e, hx, -⟩ := k4
          exact absurd (A.vendorMatch.mp hx) (k4' v (by rw [e]; simp))
        · obtain ⟨x, z, e, hx, -⟩ := k4'
          exact absurd (A.vendorMatch.mpr hx) (k4 v' (by rw [e]; simp))
        · rfl
  rw [this]

theorem device_type_same (A : Alike T q.ua u') {a a' : Ans} (h : uncached T H .deviceType q = some a) (h' : uncached T H .deviceType (q.spelled u') = some a')
    (hos : ∀ s s', uncached T H .os q = some (.text s) → uncached T H .os (q.spelled u') = some (.text s') → (s ∈ desktopNames ↔ s' ∈ desktopNames)) : a = a' := by
  obtain ⟨t, rfl, h1⟩ := C24_device_type h
  obtain ⟨t', rfl, h1'⟩ := C24_device_type h'
  have et := A.tablet
  have em := A.mobile
  have : t = t' := by
    rcases h1 with ⟨d, v, mo, k1, k2⟩ | ⟨k1, k2⟩
    · rcases h1' with ⟨d', v', mo', k1', k2'⟩ | ⟨k1', -⟩
      · obtain ⟨rfl, rfl⟩ := (A.deviceChosen k1).unique k1'
        obtain ⟨mo'', k3, -⟩ := A.deviceRes k2
        exact (k3.unique k2').2
      · exact absurd k1' (A.deviceChosen k1).not_none
    · rcases h1' with ⟨d', v', mo', k1', k2'⟩ | ⟨k1', k2'⟩
      · exact absurd (A.deviceNone k1) k1'.not_none
      · rcases k2 with ⟨k2, ⟨o, k3, k4⟩, rfl⟩ | ⟨k2, rfl⟩ <;> rcases k2' with ⟨k2', ⟨o', k3', k4'⟩, rfl⟩ | ⟨k2', rfl⟩
        · rfl
        · rcases k2' with k2' | ⟨o', k3', k4'⟩
          · exact absurd k2' k2
          · exact absurd ((hos o o' k4 k4').mp k3) k3'
        · rcases k2 with k2 | ⟨o, k3, k4⟩
          · exact absurd k2 k2'
          · exact absurd ((hos o o' k4 k4').mpr k3') k3
        · show _ = if T.forceTablet.isMatch u' then _ else if T.forceMobile.isMatch u' then _ else _
          rw [et, em]
  rw [this]

theorem version_same {g gs : Getter} (hp : VersionPair g gs)
    (h : ∃ s s', uncached T H gs q = some (.text s) ∧ uncached T H gs (q.spelled u') = some (.text s') ∧ CaseEq s s') :
    ∃ a a', uncached T H g q = some a ∧ uncached T H g (q.spelled u') = some a' ∧ AnsAlike a a' := by
  obtain ⟨s, s', h1, h2, h3⟩ := h
  exact ⟨_, _, version_of hp h1, version_of hp h2, parse_same h3⟩

end

/-! ### The shipped tables -/

/-- What tells two spellings of a user agent apart for the shipped tables: the literal texts among the rules, the four texts looked for in OS
detection, and the vendor fragments. -/
structure SameSpelling (T : Tables) (u u' : Bytes) : Prop where
  client : ∀ rows ∈ T.crIdx, ∀ v ∈ rows, v.matchRI < 0 → ∀ lit, Text T.crBuf v.match64 lit → (lit <:+: u ↔ lit <:+: u')
  os : ∀ v ∈ T.orOs, v.matchRI < 0 → ∀ lit, Text T.orBuf v.match64 lit → (lit <:+: u ↔ lit <:+: u')
  osVersion : ∀ v ∈ T.orOv, v.matchRI < 0 → ∀ lit, Text T.orBuf v.match64 lit → (lit <:+: u ↔ lit <:+: u')
  device : ∀ rows ∈ T.drIdx, ∀ v ∈ rows, v.matchRI < 0 → ∀ lit, Text T.drBuf v.match64 lit → (lit <:+: u ↔ lit <:+: u')
  model : ∀ v ∈ T.drDm, v.matchRI < 0 → ∀ lit, Text T.drBuf v.match64 lit → (lit <:+: u ↔ lit <:+: u')
  marks : ∀ m ∈ [ascii "Mac", ascii "(x86_64)", ascii "com.apple.Safari", ascii "like Android"], m <:+: u ↔ m <:+: u'
  vendors : ∀ re ∈ T.vrRe, re.isMatch u = re.isMatch u'

theorem crEvre_flags : crEvre.all flagB = true := by decide +kernel
theorem crEf_digits : (crEf.all fun f => f.cases.all fun x => x.1.all fun b => decide (b.toNat < 65)) = true := by decide +kernel

/-- For the shipped tables nothing else does. -/
theorem alike_shipped {u u' : Bytes} (h : CaseEq u u') (hs : SameSpelling Regexp.lib.tables u u') : Alike Regexp.lib.tables u u' where
  eq := h
  cr re hr := (C65_rules h re (.inl hr)).2
  ev re hr := shipped_same (fun p hp => flagB_iff (List.all_eq_true.mp crEvre_flags p hp)) h hr
  os re hr := (C65_rules h re (.inr (.inl hr))).2
  dr re hr := (C65_rules h re (.inr (.inr hr))).2
  vr := hs.vendors
  blink := by
    show (Regexp.lib.compile (buf (pat! "(?i)Chrome/.+ Safari/537.36"))).isMatch u = _
    unfold Re.isMatch
    exact congrArg Option.isSome (C65_regexp (flagB_iff (by decide +kernel)) h)
  tablet := by
    show (Regexp.lib.compile (buf (pat! "(?i)Tablet"))).isMatch u = _
    unfold Re.isMatch
    exact congrArg Option.isSome (C65_regexp (flagB_iff (by decide +kernel)) h)
  mobile := by
    show (Regexp.lib.compile (buf (pat! "(?i)Mobile"))).isMatch u = _
    unfold Re.isMatch
    exact congrArg Option.isSome (C65_regexp (flagB_iff (by decide +kernel)) h)
  fn f hf m m' hm := by
    obtain ⟨g, hg, rfl⟩ := List.mem_map.mp hf
    refine engineFn_same (fun x hx b hb => ?_) hm
    have := List.all_eq_true.mp (List.all_eq_true.mp (List.all_eq_true.mp crEf_digits g hg) x hx) b hb
    exact of_decide_eq_true this
  client := hs.client
  osLit := hs.os
  ovLit := hs.osVersion
  device := hs.device
  model := hs.model
  marks := hs.marks

section
variable {H : Bytes → UInt64} {q : Req} {u' : Bytes}

theorem osName_cases {s : Bytes} (hl : q.ua.length < 2 ^ 32) (h : uncached Regexp.lib.tables H .os q = some (.text s)) :
    (OSNone Regexp.lib.tables q.ua ∧ s = ascii "UNK") ∨
      ∃ x raw, OSChosen Regexp.lib.tables q.ua x ∧ OSName Regexp.lib.tables q.ua x raw ∧ Trimmed raw s := by
  obtain ⟨s', h1, h2⟩ := C53_os (H := H) (q := q) (shipped_wfdev Regexp.lib _) hl
  rw [h] at h1
  cases h1
  rcases h2 with h2 | ⟨x, raw, k1, k2, k3 | ⟨rfl, rfl⟩⟩
  · exact .inl h2
  · exact .inr ⟨x, raw, k1, k2, k3⟩
  · obtain ⟨v, hv⟩ := Option.ne_none_iff_exists'.mp (show uncached Regexp.lib.tables H .osVersionString q ≠ none by
      rw [uncached_eq _ (by decide)]; exact outAns_total_dev (shipped_wfdev Regexp.lib _) hl (by decide) rfl)
    obtain ⟨sv, hsv, -⟩ := C31_shape (H := H) (q := q) (shipped_wfdev Regexp.lib _) hl
    exact absurd ((C86_os hl hsv h).1.mp rfl) k1.not_none

theorem os_same (A : Alike Regexp.lib.tables q.ua u') (hl : q.ua.length < 2 ^ 32) :
    ∃ s s', uncached Regexp.lib.tables H .os q = some (.text s) ∧ uncached Regexp.lib.tables H .os (q.spelled u') = some (.text s') ∧ CaseEq s s' := by
  have hl' : u'.length < 2 ^ 32 := by rw [← A.eq.length]; exact hl
  obtain ⟨s, h1, -⟩ := C53_os (H := H) (q := q) (shipped_wfdev Regexp.lib _) hl
  obtain ⟨s', h1', -⟩ := C53_os (H := H) (q := q.spelled u') (shipped_wfdev Regexp.lib _) hl'
  refine ⟨s, s', h1, h1', ?_⟩
  rcases osName_cases hl h1 with ⟨k1, rfl⟩ | ⟨x, raw, k1, k2, k3⟩
  · rcases osName_cases (q := q.spelled u') hl' h1' with ⟨-, rfl⟩ | ⟨x', raw', k1', -, -⟩
    · rfl
    · exact absurd (A.osNone k1) k1'.not_none
  · rcases osName_cases (q := q.spelled u') hl' h1' with ⟨k1', -⟩ | ⟨x', raw', k1', k2', k3'⟩
    · exact absurd k1' (A.osChosen k1).not_none
    · obtain rfl := (A.osChosen k1).unique k1'
      obtain ⟨r, k4, k5⟩ := A.osName k2
      rw [k4.unique k2'] at k5
      obtain ⟨s'', k6, k7⟩ := k5.trimmed k3
      rwa [k6.unique k3'] at k7

/-- C65, what holds of all getters: if no rule given as a literal text, none of the four texts looked for in OS detection and no vendor fragment
tells the two spellings apart, the answers are the same but for the case of letters in texts; a getter panics on both or neither. For GetDeviceType
the two OS names have to be both or neither one of a desktop system. Missing: the spellings that are told apart. -/
theorem C65_partial (hl : q.ua.length < 2 ^ 26) (h : CaseEq q.ua u') (hs : SameSpelling Regexp.lib.tables q.ua u') (g : Getter)
    (hos : g = .deviceType → ∀ s s', uncached Regexp.lib.tables H .os q = some (.text s) →
      uncached Regexp.lib.tables H .os { q with ua := u' } = some (.text s') → (s ∈ desktopNames ↔ s' ∈ desktopNames)) :
    (uncached Regexp.lib.tables H g q = none ∧ uncached Regexp.lib.tables H g { q with ua := u' } = none) ∨
      ∃ a a', uncached Regexp.lib.tables H g q = some a ∧ uncached Regexp.lib.tables H g { q with ua := u' } = some a' ∧ AnsAlike a a' := by
  have A := alike_shipped h hs
  have hl1 : q.ua.length < 2 ^ 32 := by omega
  have hl' : u'.length < 2 ^ 32 := by rw [← h.length]; exact hl1
  have texts : ∀ {g}, (∃ s s', uncached Regexp.lib.tables H g q = some (.text s) ∧ uncached Regexp.lib.tables H g (q.spelled u') = some (.text s') ∧ CaseEq s s') →
      ∃ a a', uncached Regexp.lib.tables H g q = some a ∧ uncached Regexp.lib.tables H g (q.spelled u') = some a' ∧ AnsAlike a a' := by
    rintro g ⟨s, s', k1, k2, k3⟩
    exact ⟨_, _, k1, k2, k3⟩
  have refl : ∀ a : Ans, AnsAlike a a := by
    intro a
    cases a
    · exact CaseEq.refl _
    · rfl
    · rfl
    · exact ⟨rfl, rfl, rfl, rfl, rfl, CaseEq.refl _⟩
  have fix : ∀ {g}, (uncached Regexp.lib.tables H g q ≠ none) → (uncached Regexp.lib.tables H g (q.spelled u') ≠ none) →
      (∀ a a', uncached Regexp.lib.tables H g q = some a → uncached Regexp.lib.tables H g (q.spelled u') = some a' → a = a') →
      ∃ a a', uncached Regexp.lib.tables H g q = some a ∧ uncached Regexp.lib.tables H g (q.spelled u') = some a' ∧ AnsAlike a a' := by
    intro g k1 k2 k3
    obtain ⟨a, ha⟩ := Option.ne_none_iff_exists'.mp k1
    obtain ⟨a', ha'⟩ := Option.ne_none_iff_exists'.mp k2
    obtain rfl := k3 a a' ha ha'
    exact ⟨a, a, ha, ha', refl a⟩
  have wd := shipped_wfdev Regexp.lib q.ua
  have wd' := shipped_wfdev Regexp.lib u'
  have dev : ∀ {g : Getter}, g ≠ .model → g.isC = false → uncached Regexp.lib.tables H g q ≠ none ∧ uncached Regexp.lib.tables H g (q.spelled u') ≠ none := by
    intro g k1 k2
    rw [uncached_eq _ k1, uncached_eq _ k1]
    exact ⟨outAns_total_dev wd hl1 k1 k2, outAns_total_dev wd' hl' k1 k2⟩
  by_cases hu : ∃ t v, ClientChosen Regexp.lib.tables q.mc q.ua t v ∧ UnsafeRule v
  · cases hc : g.isC with
    | true =>
      obtain ⟨t, v, k1, k2⟩ := hu
      exact .inl ⟨C27_panics _ k1 k2 hc, C27_panics (q := q.spelled u') _ (A.clientChosen k1) k2 hc⟩
    | false =>
      right
      cases g with
      | userAgent => exact texts ⟨q.ua, u', by rw [uncached_eq _ (by decide)]; rfl, by rw [uncached_eq _ (by decide)]; rfl, h⟩
      | deviceType => exact fix (dev (by decide) rfl).1 (dev (by decide) rfl).2 fun a a' k1 k2 => device_type_same A k1 k2 (hos rfl)
      | brand => exact fix (dev (by decide) rfl).1 (dev (by decide) rfl).2 fun a a' k1 k2 => brand_same A k1 k2
      | model => exact texts (model_same A wd wd' hl1 (shipped_bound _ hl))
      | os => exact texts (os_same A hl1)
      | osVersionString => exact texts (os_version_same A wd wd' hl1)
      | osVersion => exact version_same .os (os_version_same A wd wd' hl1)
      | _ => cases hc
  · right
    have hu : ∀ t v, ClientChosen Regexp.lib.tables q.mc q.ua t v → ¬ UnsafeRule v := fun t v k1 k2 => hu ⟨t, v, k1, k2⟩
    have c := chosen_wf Regexp.lib (q := q) hu
    have c' := chosen_wf Regexp.lib (q := q.spelled u') fun t v k1 => hu t v (A.symm.clientChosen k1)
    have wb := shipped_wfbase Regexp.lib q.ua
    have wb' := shipped_wfbase Regexp.lib u'
    have cl : ∀ {g : Getter}, g ≠ .model → uncached Regexp.lib.tables H g q ≠ none ∧ uncached Regexp.lib.tables H g (q.spelled u') ≠ none := by
      intro g k1
      rw [uncached_eq _ k1, uncached_eq _ k1]
      exact ⟨outAns_total wb hl1 c k1, outAns_total wb' hl' c' k1⟩
    cases g with
    | userAgent => exact texts ⟨q.ua, u', by rw [uncached_eq _ (by decide)]; rfl, by rw [uncached_eq _ (by decide)]; rfl, h⟩
    | deviceType => exact fix (cl (by decide)).1 (cl (by decide)).2 fun a a' k1 k2 => device_type_same A k1 k2 (hos rfl)
    | brand => exact fix (cl (by decide)).1 (cl (by decide)).2 fun a a' k1 k2 => brand_same A k1 k2
    | model => exact texts (model_same A wd wd' hl1 (shipped_bound _ hl))
    | os => exact texts (os_same A hl1)
    | osVersionString => exact texts (os_version_same A wd wd' hl1)
    | osVersion => exact version_same .os (os_version_same A wd wd' hl1)
    | clientType => exact fix (cl (by decide)).1 (cl (by decide)).2 fun a a' k1 k2 => client_type_same A k1 k2
    | browser => exact fix (cl (by decide)).1 (cl (by decide)).2 fun a a' k1 k2 => browser_same A k1 k2
    | browserVersionString => exact texts (browser_version_same A wb wb' c c' hl1)
    | browserVersion => exact version_same .browser (browser_version_same A wb wb' c c' hl1)
    | engine =>
      obtain ⟨s, k1, k2⟩ := engine_text_same (H := H) A wb wb' c c' hl1
      exact ⟨_, _, k1, k2, CaseEq.refl _⟩
    | engineVersionString => exact texts (engine_version_same A wb wb' c c' hl1)
    | engineVersion => exact version_same .engine (engine_version_same A wb wb' c c' hl1)

end

/-- C65 is refuted for GetBrand too: the vendor fragments are matched exactly. -/
theorem C65_brand_refuted : ∃ (q : Req) (u' : Bytes), CaseEq q.ua u' ∧
    uncached Regexp.lib.tables fnv1 .brand { q with ua := u' } ≠ uncached Regexp.lib.tables fnv1 .brand q :=
  ⟨{ ua := buf (pat! "NP06 "), md := 0 }, buf (pat! "np06 "), by unfold CaseEq; decide +kernel, by decide +kernel⟩

/-! The hypotheses are met by two spellings of wget. -/

/-- The literal text at `e` does not tell the texts apart; texts longer than them are not looked at. -/
def litB (cs : List Chunk) (u u' : Bytes) (ri : Int) (e : Entry64) : Bool :=
  decide (0 ≤ ri) || Nat.blt (e.toNat / 4294967296 + u.length) (e.toNat % 4294967296) || Nat.beq (e.toNat % 4294967296) (e.toNat / 4294967296) ||
    (containsSub u ((textN cs e).map UInt8.ofNat) == containsSub u' ((textN cs e).map UInt8.ofNat))

theorem litB_of {cs : List Chunk} {u u' : Bytes} (hl : u.length = u'.length) {ri : Int} {e : Entry64} (h : litB cs u u' ri e = true) (h0 : ri < 0) {lit : Bytes}
    (ht : Text (buf cs) e lit) : lit <:+: u ↔ lit <:+: u' := by
  have et := textN_eq ht
  obtain ⟨a, z, -, h1, h2⟩ := ht
  unfold litB at h
  rw [decide_eq_false (by omega), Bool.false_or, Bool.or_eq_true, Bool.or_eq_true] at h
  rcases h with (h | h) | h
  · have h := blt_lt h
    constructor <;> intro hi <;> (have := hi.length_le; omega)
  · have h := Nat.eq_of_beq_eq_true h
    have : lit = [] := List.length_eq_zero_iff.mp (by omega)
    subst this
    exact iff_of_true (List.nil_infix) (List.nil_infix)
  · have e : (textN cs e).map UInt8.ofNat = lit := by
      rw [et, List.map_map]
      exact (List.map_congr_left fun b _ => UInt8.ofNat_toNat).trans (List.map_id _)
    rw [e] at h
    have h : containsSub u lit = containsSub u' lit := by simpa using h
    rw [← containsSub_iff, ← containsSub_iff, h]

theorem wget_client : (([crIdx0, crIdx1, crIdx2, crIdx3, crIdx4, crIdx5, crIdx6] : List (List ClientTuple)).all fun rows =>
    rows.all fun v => litB crBuf (buf (pat! "wget")) (buf (pat! "WGET")) v.matchRI v.match64) = true := by decide +kernel
theorem wget_os : (orOs.all fun v => litB orBuf (buf (pat! "wget")) (buf (pat! "WGET")) v.matchRI v.match64) = true := by decide +kernel
theorem wget_version : (orOv.all fun v => litB orBuf (buf (pat! "wget")) (buf (pat! "WGET")) v.matchRI v.match64) = true := by decide +kernel
theorem wget_device : (([drIdx0, drIdx1, drIdx2, drIdx3, drIdx4, drIdx5, drIdx6, drIdx7] : List (List DeviceTuple)).all fun rows =>
    rows.all fun v => litB drBuf (buf (pat! "wget")) (buf (pat! "WGET")) v.matchRI v.match64) = true := by decide +kernel
theorem wget_model : (dmParts.all fun rows => rows.all fun v => litB drBuf (buf (pat! "wget")) (buf (pat! "WGET")) v.matchRI v.match64) = true := by
  decide +kernel

theorem wget_spelling : SameSpelling Regexp.lib.tables (buf (pat! "wget")) (buf (pat! "WGET")) where
  client rows hr v hv h0 lit ht := litB_of (by decide +kernel) (List.all_eq_true.mp (List.all_eq_true.mp wget_client rows hr) v hv) h0 ht
  os v hv h0 lit ht := litB_of (by decide +kernel) (List.all_eq_true.mp wget_os v hv) h0 ht
  osVersion v hv h0 lit ht := litB_of (by decide +kernel) (List.all_eq_true.mp wget_version v hv) h0 ht
  device rows hr v hv h0 lit ht := litB_of (by decide +kernel) (List.all_eq_true.mp (List.all_eq_true.mp wget_device rows hr) v hv) h0 ht
  model v hv h0 lit ht := by
    have hv : v ∈ drDm := hv
    rw [dmParts_flatten] at hv
    obtain ⟨rows, hr, hv⟩ := List.mem_flatten.mp hv
    exact litB_of (by decide +kernel) (List.all_eq_true.mp (List.all_eq_true.mp wget_model rows hr) v hv) h0 ht
  marks := by
    have h : ∀ m ∈ [ascii "Mac", ascii "(x86_64)", ascii "com.apple.Safari", ascii "like Android"],
        containsSub (buf (pat! "wget")) m = containsSub (buf (pat! "WGET")) m := by decide +kernel
    intro m hm
    rw [← containsSub_iff, ← containsSub_iff, h m hm]
  vendors := by
    intro re hr
    obtain ⟨p, hp, rfl⟩ := List.mem_map.mp hr
    exact (by decide +kernel : ∀ p ∈ vrRe, (Regexp.compile (buf p)).isMatch (buf (pat! "wget")) = (Regexp.compile (buf p)).isMatch (buf (pat! "WGET"))) p hp

example (g : Getter) (hg : g ≠ .deviceType) :
    (uncached Regexp.lib.tables fnv1 g { ua := buf (pat! "wget") } = none ∧ uncached Regexp.lib.tables fnv1 g { ua := buf (pat! "WGET") } = none) ∨
      ∃ a a', uncached Regexp.lib.tables fnv1 g { ua := buf (pat! "wget") } = some a ∧ uncached Regexp.lib.tables fnv1 g { ua := buf (pat! "WGET") } = some a' ∧
        AnsAlike a a' :=
  C65_partial (q := { ua := buf (pat! "wget") }) (by decide +kernel) (by unfold CaseEq; decide +kernel) wget_spelling g fun h => absurd h hg

end Verif

import Verif.Proofs.Unique
import Verif.Proofs.DemoWF
import Verif.Props.Transparency
/-
Properties of OS detection: C31 (version text), C53 (rule selection and skipped rules).
-/
namespace Verif

section
variable {T : Tables} {H : Bytes → UInt64} {q : Req}

/-! ### C53 -/

/-- C53: GetOS answers the trimmed name of the first matching rule that is not skipped, "UNK" if there is none. (A rule whose name is
empty may be reported as "UNK" as well.) -/
theorem C53_os (hw : WFdev T q.ua) (hl : q.ua.length < 2 ^ 32) :
    ∃ s, uncached T H .os q = some (.text s) ∧
      ((OSNone T q.ua ∧ s = ascii "UNK") ∨
       ∃ x raw, OSChosen T q.ua x ∧ OSName T q.ua x raw ∧ (Trimmed raw s ∨ raw = [] ∧ s = ascii "UNK")) := by
  rw [uncached_eq _ (by decide)]
  obtain ⟨g, hg⟩ := Option.ne_none_iff_exists'.mp (osOut_total hw)
  simp only [outAns, osAns, hg, Option.bind_some]
  unfold osNameText
  obtain ⟨h1, rfl⟩ | ⟨x, h1, h2⟩ := osOut_char hg
  · exact ⟨ascii "UNK", by simp [zeroO, unknown], .inl ⟨h1, rfl⟩⟩
  · obtain ⟨⟨raw, h3, h4⟩, -⟩ := osOwn_text hw hl (hw.orOs.2 x h1.mem.1) h1.mem.2.1
    rw [← h2.name] at h4
    have h4 : Text (if g.bufSrc then q.ua else T.orBuf) g.osName64 raw := h4
    by_cases hz : g.osName64 = 0
    · rw [hz] at h4 ⊢
      cases text_zero h4
      exact ⟨ascii "UNK", rfl, .inr ⟨x, [], h1, h3, .inr ⟨rfl, rfl⟩⟩⟩
    · rw [if_pos hz, sliceE_iff.mpr h4]
      exact ⟨trim 32 raw, rfl, .inr ⟨x, raw, h1, h3, .inl (trim_spec raw)⟩⟩

/-- The regexps of the two Darwin/iOS rules and of the two generic Android rules. -/
def darwinRules : List String :=
  ["(?i)^.*CFNetwork/.+ Darwin/(\\d+[\\.\\d]+)",
   "(?i)(?:Podcasts/(?:[\\d\\.]+)|Instacast(?:HD)?/(?:\\d\\.[\\d\\.abc]+)|Pocket Casts, iOS|\\(iOS\\)|iOS; Opera|Overcast|Castro|Podcat|iCatcher|RSSRadio/|MobileSafari/)"]
def androidRules : List String :=
  ["(?i)(?:(?:Orca-)?Android|Adr|AOSP)[ /]?(?:[a-z]+ )?(\\d+[\\.\\d]*)", "(?i) Adr |Android|Silk-Accelerated=[a-z]{4,5}"]

/-- C53, skipped rules: the rule behind the answer of GetOS is never a Darwin/iOS rule if the user agent carries a Mac marker, and never a
generic Android rule if it says "like Android". -/
theorem C53_skipped (hw : WFdev T q.ua) (hl : q.ua.length < 2 ^ 32) {s : Bytes} (h : uncached T H .os q = some (.text s)) (hs : s ≠ ascii "UNK") :
    ∃ x ∈ T.orOs, OSMatch T q.ua x ∧ (∃ raw, OSName T q.ua x raw ∧ Trimmed raw s) ∧
      ∀ re, 0 ≤ x.matchRI → T.orRe[x.matchRI.toNat]? = some re →
        (ascii "Mac" <:+: q.ua ∨ ascii "(x86_64)" <:+: q.ua ∨ ascii "com.apple.Safari" <:+: q.ua → ∀ p ∈ darwinRules, re.src ≠ ascii p) ∧
        (ascii "like Android" <:+: q.ua → ∀ p ∈ androidRules, re.src ≠ ascii p) := by
  obtain ⟨s', h1, h2⟩ := C53_os (H := H) hw hl
  rw [h] at h1; cases h1
  obtain ⟨-, h2⟩ | ⟨x, raw, h2, h3, h4⟩ := h2
  · exact absurd h2 hs
  refine ⟨x, h2.mem.1, h2.mem.2.1, ⟨raw, h3, h4.resolve_right fun h => hs h.2⟩, fun re h0 hr => ?_⟩
  have hs := h2.mem.2.2
  constructor
  · intro hm s hs' he
    refine hs ⟨h0, re, hr, .inl ⟨?_, hm⟩⟩
    simp only [darwinRules, List.mem_cons, List.not_mem_nil, or_false] at hs'
    rcases hs' with rfl | rfl
    · exact .inl he
    · exact .inr he
  · intro hm s hs' he
    refine hs ⟨h0, re, hr, .inr ⟨?_, hm⟩⟩
    simp only [androidRules, List.mem_cons, List.not_mem_nil, or_false] at hs'
    rcases hs' with rfl | rfl
    · exact .inl he
    · exact .inr he

/-- C53, nothing else is skipped: a matching rule other than those four is passed over only for an earlier matching rule; if it is
the first matching rule, GetOS answers its name. -/
theorem C53_not_skipped (hw : WFdev T q.ua) (hlen : q.ua.length < 2 ^ 32) {x : OSTuple} (hx : OSMatch T q.ua x)
    (hre : ∀ re, 0 ≤ x.matchRI → T.orRe[x.matchRI.toNat]? = some re → ∀ s ∈ darwinRules ++ androidRules, re.src ≠ ascii s) {a z : List OSTuple}
    (hl : T.orOs = a ++ x :: z) (ha : ∀ y ∈ a, ¬ OSMatch T q.ua y) :
    ∃ s raw, uncached T H .os q = some (.text s) ∧ OSName T q.ua x raw ∧ (Trimmed raw s ∨ raw = [] ∧ s = ascii "UNK") := by
  have hc : OSChosen T q.ua x := by
   refine ⟨a, z, hl, ⟨hx, ?_⟩, fun y hy h => ha y hy h.1⟩
   rintro ⟨h0, re, h1, ⟨h2 | h2, -⟩ | ⟨h2 | h2, -⟩⟩
   · exact hre re h0 h1 _ (by simp [darwinRules]) h2
   · exact hre re h0 h1 _ (by simp [darwinRules]) h2
   · exact hre re h0 h1 _ (by simp [androidRules]) h2
   · exact hre re h0 h1 _ (by simp [androidRules]) h2
  obtain ⟨s, h1, ⟨h2, -⟩ | ⟨y, raw, h2, h3⟩⟩ := C53_os (H := H) hw hlen
  · exact absurd h2 hc.not_none
  · cases hc.unique h2
    exact ⟨s, raw, h1, h3⟩

/-- The Android phone. -/
example : uncached Demo.tables Demo.hash .os { ua := Demo.phone } = some (.text (ascii "Android")) := by decide +kernel

/-- OS tables with the generic Android rule, followed by Windows. -/
def Demo.osTables : Tables := { Demo.tables with
  orOs := [{ name64 := Demo.e64 0 7, matchRI := 0 }, { name64 := Demo.e64 7 14, match64 := Demo.e64 7 14 }]
  orRe := [{ Demo.plainRe "Android" with src := ascii "(?i) Adr |Android|Silk-Accelerated=[a-z]{4,5}" }] }

/-- A Windows phone pretending to be "like Android": the Android rule is skipped there, and only there. -/
example : uncached Demo.osTables Demo.hash .os { ua := ascii "Windows Phone 8; like Android 4" } = some (.text (ascii "Windows")) ∧
    uncached Demo.osTables Demo.hash .os { ua := ascii "Windows Android 4" } = some (.text (ascii "Android")) := by decide +kernel

/-! ### C31 -/

/-- C31: GetOSVersionString answers the version text of the chosen rule with every underscore replaced by a dot; so there is none. -/
theorem C31_shape (hw : WFdev T q.ua) (hl : q.ua.length < 2 ^ 32) :
    ∃ s, uncached T H .osVersionString q = some (.text s) ∧ 95 ∉ s ∧
      ((OSNone T q.ua ∧ s = []) ∨
       ∃ x raw, OSChosen T q.ua x ∧ OSVersionText T q.ua x raw ∧ s.length = raw.length ∧
         ∀ (i : Nat) b, raw[i]? = some b → s[i]? = some (if b = 95 then 46 else b)) := by
  rw [uncached_eq _ (by decide)]
  obtain ⟨g, hg⟩ := Option.ne_none_iff_exists'.mp (osOut_total hw)
  simp only [outAns, hg, Option.bind_some]
  unfold osVerText
  obtain ⟨h1, rfl⟩ | ⟨x, h1, h2⟩ := osOut_char hg
  · exact ⟨[], by simp [zeroO], by simp, .inl ⟨h1, rfl⟩⟩
  · have hx := hw.orOs.2 x h1.mem.1
    obtain ⟨-, raw0, h3, h4⟩ := osOwn_text hw hl hx h1.mem.2.1
    obtain ⟨raw, h5, h6⟩ := osVer_text hw hl hx h3 h4 h2.ver
    have h6 : Text (if g.verBufSrc then T.orBuf else q.ua) g.osVersion64 raw := h6
    have fin : ∀ raw : Bytes, 95 ∉ raw.map (fun b => if b = 95 then 46 else b) := by
      intro raw h
      obtain ⟨b, -, hb⟩ := List.mem_map.mp h
      split at hb
      · exact absurd hb (by decide)
      · exact absurd hb ‹_›
    by_cases hz : g.osVersion64 = 0
    · rw [hz] at h6 ⊢
      cases text_zero h6
      exact ⟨[], rfl, by simp, .inr ⟨x, [], h1, h5, rfl, by simp⟩⟩
    · rw [if_pos (UInt64.pos_iff_ne_zero.mpr hz), sliceE_iff.mpr h6]
      refine ⟨_, rfl, fin raw, .inr ⟨x, raw, h1, h5, by simp, ?_⟩⟩
      intro i b hb
      rw [List.getElem?_map, hb]; rfl

/-- iOS versions are written with underscores. -/
example : uncached Demo.tables Demo.hash .osVersionString { ua := ascii "iPhone OS 14_2_1 like Mac" } = some (.text (ascii "14.2.1")) ∧
    uncached Demo.tables Demo.hash .osVersionString { ua := Demo.phone } = some (.text (ascii "10")) := by decide +kernel

end
end Verif

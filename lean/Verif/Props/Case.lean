import Verif.Proofs.CaseFold
import Verif.Props.Shipped
import Verif.Props.Client
import Verif.Model.Compiler
import Verif.Props.BuiltinCollision
/-
C65: detection and the case of letters. The rule files are meant to be matched ignoring case; rules compiled to regexps are, rules compiled to
literal texts are not.
-/
namespace Verif

open Data

/-! ### Regexps -/

/-- C65, regexps: a pattern that begins with `(?i)` finds the same match and the same groups at the same offsets in texts that differ in the case
of ASCII letters only. -/
theorem C65_regexp {p : Bytes} (hp : ∃ p', p = ascii "(?i)" ++ p') {u u' : Bytes} (h : CaseEq u u') :
    (Regexp.compile p).find u = (Regexp.compile p).find u' := Regexp.compile_same hp h

example : ∃ p', ascii "(?i)Chrome/(\\d+)" = ascii "(?i)" ++ p' := ⟨ascii "Chrome/(\\d+)", by decide +kernel⟩
example : CaseEq (ascii "Chrome/9") (ascii "CHROME/9") := by unfold CaseEq; decide +kernel
example : (Regexp.compile (ascii "(?i)Chrome/(\\d+)")).find (ascii "x CHROME/9") = some [2, 10, 9, 10] := by decide +kernel

/-- The pattern begins with `(?i)`, on packed texts. -/
def flagB : List Chunk → Bool
  | c :: _ => Nat.ble 4 c.n && Nat.beq (c.x % 4294967296) 0x29693f28
  | [] => false

theorem flagB_iff {p : List Chunk} (h : flagB p = true) : ∃ p', buf p = ascii "(?i)" ++ p' := by
  cases p with
  | nil => cases h
  | cons c cs =>
    simp only [flagB, Bool.and_eq_true] at h
    obtain ⟨h1, h2⟩ := h
    have h1 := Nat.le_of_ble_eq_true h1
    have h2 := Nat.eq_of_beq_eq_true h2
    obtain ⟨n, x⟩ := c
    obtain ⟨m, rfl⟩ : ∃ m, n = m + 4 := ⟨n - 4, by simp only at h1; omega⟩
    simp only at h2
    refine ⟨unpack m (x / 256 / 256 / 256 / 256) ++ buf cs, ?_⟩
    have e0 : x % 256 = 40 := by omega
    have e1 : x / 256 % 256 = 63 := by omega
    have e2 : x / 256 / 256 % 256 = 105 := by omega
    have e3 : x / 256 / 256 / 256 % 256 = 41 := by omega
    show unpack (m + 4) x ++ buf cs = _
    simp only [unpack, e0, e1, e2, e3]
    rfl

theorem crRe_flags : crRe.all flagB = true := by decide +kernel
theorem orRe_flags : orRe.all flagB = true := by decide +kernel
theorem drRe_flags : drRe.all flagB = true := by decide +kernel

/-- C65, patterns: all shipped patterns of clients, operating systems and devices begin with `(?i)`. -/
theorem C65_patterns : ∀ p ∈ crRe ++ orRe ++ drRe, ∃ p', buf p = ascii "(?i)" ++ p' := by
  intro p hp
  simp only [List.mem_append] at hp
  rcases hp with (hp | hp) | hp
  · exact flagB_iff (List.all_eq_true.mp crRe_flags p hp)
  · exact flagB_iff (List.all_eq_true.mp orRe_flags p hp)
  · exact flagB_iff (List.all_eq_true.mp drRe_flags p hp)

theorem shipped_same {ps : List (List Chunk)} (hps : ∀ p ∈ ps, ∃ p', buf p = ascii "(?i)" ++ p') {u u' : Bytes} (h : CaseEq u u') {re : Re}
    (hr : re ∈ ps.map fun p => Regexp.lib.compile (buf p)) : re.find u = re.find u' := by
  obtain ⟨p, hp, rfl⟩ := List.mem_map.mp hr
  exact C65_regexp (hps p hp) h

/-- C65, rules: a shipped rule given by a regexp matches both or neither, and finds the same groups at the same offsets. -/
theorem C65_rules {u u' : Bytes} (h : CaseEq u u') (re : Re) (hr : re ∈ Regexp.lib.tables.crRe ∨ re ∈ Regexp.lib.tables.orRe ∨ re ∈ Regexp.lib.tables.drRe) :
    re.isMatch u = re.isMatch u' ∧ re.find u = re.find u' := by
  have : re.find u = re.find u' := by
    rcases hr with hr | hr | hr
    · exact shipped_same (fun p hp => C65_patterns p (by simp [hp])) h hr
    · exact shipped_same (fun p hp => C65_patterns p (by simp [hp])) h hr
    · exact shipped_same (fun p hp => C65_patterns p (by simp [hp])) h hr
  exact ⟨by unfold Re.isMatch; rw [this], this⟩

/-! ### Generated tables -/

theorem wrapClient_flag (p : Bytes) : ∃ p', Compiler.wrapClient p = ascii "(?i)" ++ p' := by
  refine ⟨ascii "(?:^|[^A-Z0-9\\-_]|[^A-Z0-9\\-]_|sprd-|MZ-)(?:" ++ p ++ ascii ")", ?_⟩
  have : ascii "(?i)(?:^|[^A-Z0-9\\-_]|[^A-Z0-9\\-]_|sprd-|MZ-)(?:" =
      ascii "(?i)" ++ ascii "(?:^|[^A-Z0-9\\-_]|[^A-Z0-9\\-]_|sprd-|MZ-)(?:" := by decide +kernel
  unfold Compiler.wrapClient
  rw [this]
  simp only [List.append_assoc]

/-- C65, generator: whatever the rule files contain, the client, engine version, OS and device regexps of the generated tables ignore case. -/
theorem C65_generated (fb ft fm : Re) (o : Compiler.Outputs) {u u' : Bytes} (h : CaseEq u u') (re : Re)
    (hr : re ∈ (Compiler.tablesOf Regexp.compile fb ft fm o).crRe ∨ re ∈ (Compiler.tablesOf Regexp.compile fb ft fm o).crEvre ∨
      re ∈ (Compiler.tablesOf Regexp.compile fb ft fm o).orRe ∨ re ∈ (Compiler.tablesOf Regexp.compile fb ft fm o).drRe) : re.find u = re.find u' := by
  have flag : ∀ p, ∃ p', Compiler.wrapCI p = ascii "(?i)" ++ p' := fun p => ⟨p, rfl⟩
  rcases hr with hr | hr | hr | hr <;> obtain ⟨p, -, rfl⟩ := List.mem_map.mp hr
  · exact C65_regexp (wrapClient_flag p) h
  · exact C65_regexp (flag p) h
  · exact C65_regexp (flag p) h
  · exact C65_regexp (flag p) h

/-- What every client pattern begins with. -/
def wrapPre : Bytes := ascii "(?i)(?:^|[^A-Z0-9\\-_]|[^A-Z0-9\\-]_|sprd-|MZ-)(?:"

theorem crRe_wrapped : crRe.all (fun p => wrapPre.isPrefixOf (buf p) && ((buf p).getLast? == some 41)) = true := by decide +kernel

/-- The shipped client patterns are ones the generator writes. -/
theorem C65_wrapped : ∀ p ∈ crRe, ∃ p', buf p = Compiler.wrapClient p' := by
  intro p hp
  have := List.all_eq_true.mp crRe_wrapped p hp
  rw [Bool.and_eq_true, List.isPrefixOf_iff_prefix] at this
  obtain ⟨⟨r, h1⟩, h2⟩ := this
  have h2 : (buf p).getLast? = some 41 := by simpa using h2
  rw [← h1] at h2 ⊢
  rcases List.eq_nil_or_concat r with rfl | ⟨r', x, rfl⟩
  · rw [List.append_nil] at h2
    exact absurd h2 (by decide +kernel)
  · rw [List.concat_eq_append, ← List.append_assoc, List.getLast?_concat] at h2
    cases h2
    refine ⟨r', ?_⟩
    unfold Compiler.wrapClient
    rw [List.concat_eq_append, ← List.append_assoc]
    rfl

/-! ### Clients -/

/-- The claim of C65 for GetClientType. -/
def C65Claim : Prop := ∀ (q : Req) (u' : Bytes), CaseEq q.ua u' →
  uncached Regexp.lib.tables fnv1 .clientType { q with ua := u' } = uncached Regexp.lib.tables fnv1 .clientType q

/-- C65 is refuted: the feed reader rule `Stringer` contains no character that is special in regexps, so it is compiled to a literal text, and only
matches in this spelling. -/
theorem C65_refuted : ¬ C65Claim := by
  intro h
  have := h { ua := buf (pat! "Stringer"), mc := ClientTypeFeedReader } (buf (pat! "stringer")) (by unfold CaseEq; decide +kernel)
  revert this
  decide +kernel

/-- Each literal text of the client rules occurs in both texts or in neither. -/
def SameLiterals (u u' : Bytes) : Prop :=
  ∀ rows ∈ Regexp.lib.tables.crIdx, ∀ v ∈ rows, v.matchRI < 0 → ∀ lit, Text Regexp.lib.tables.crBuf v.match64 lit → (lit <:+: u ↔ lit <:+: u')

theorem clientMatch_same {u u' : Bytes} (h : CaseEq u u') (hl : SameLiterals u u') {rows : List ClientTuple} (hr : rows ∈ Regexp.lib.tables.crIdx) {v : ClientTuple}
    (hv : v ∈ rows) : ClientMatch Regexp.lib.tables u v ↔ ClientMatch Regexp.lib.tables u' v := by
  unfold ClientMatch RowMatch
  constructor
  · rintro (⟨h0, re, h1, h2⟩ | ⟨h0, lit, h1, h2, h3⟩)
    · exact .inl ⟨h0, re, h1, by rw [← (C65_rules h re (.inl (List.mem_of_getElem? h1))).1]; exact h2⟩
    · exact .inr ⟨h0, lit, h1, h2, (hl rows hr v hv h0 lit h2).mp h3⟩
  · rintro (⟨h0, re, h1, h2⟩ | ⟨h0, lit, h1, h2, h3⟩)
    · exact .inl ⟨h0, re, h1, by rw [(C65_rules h re (.inl (List.mem_of_getElem? h1))).1]; exact h2⟩
    · exact .inr ⟨h0, lit, h1, h2, (hl rows hr v hv h0 lit h2).mpr h3⟩

theorem SameLiterals.symm {u u' : Bytes} (h : SameLiterals u u') : SameLiterals u' u := fun rows hr v hv h0 lit ht => (h rows hr v hv h0 lit ht).symm

theorem noClient_same {u u' : Bytes} (h : CaseEq u u') (hl : SameLiterals u u') {i : Nat} (hn : NoClient Regexp.lib.tables u i) : NoClient Regexp.lib.tables u' i := by
  obtain ⟨rows, h1, h2⟩ := hn
  exact ⟨rows, h1, fun v hv hm => h2 v hv ((clientMatch_same h hl (List.mem_of_getElem? h1) hv).mpr hm)⟩

theorem chosen_same {u u' : Bytes} (h : CaseEq u u') (hl : SameLiterals u u') {m t : ClientType} {v : ClientTuple}
    (hc : ClientChosen Regexp.lib.tables m u t v) : ClientChosen Regexp.lib.tables m u' t v := by
  obtain ⟨a, z, i, rows, h1, h2, h3, h4, b, y, h5, h6, h7⟩ := hc
  have hm := List.mem_of_getElem? h4
  have e := fun w hw => clientMatch_same h hl hm (v := w) hw
  refine ⟨a, z, i, rows, h1, h2, fun x hx hmx => noClient_same h hl (h3 x hx hmx), h4, b, y, h5, (e v (by simp [h5])).mp h6, ?_⟩
  exact fun w hw hw' => h7 w hw ((e w (by simp [h5, hw])).mpr hw')

theorem panics_same {q : Req} (hlen : q.ua.length < 2 ^ 32) {u' : Bytes} (h : CaseEq q.ua u') (hl : SameLiterals q.ua u') {g : Getter} (hg : g ≠ .model) :
    uncached Regexp.lib.tables fnv1 g q = none ↔ uncached Regexp.lib.tables fnv1 g { q with ua := u' } = none := by
  rw [C27_exact Regexp.lib hlen hg, C27_exact Regexp.lib (q := { q with ua := u' }) (by simpa [← h.length] using hlen) hg]
  constructor
  · rintro ⟨h1, t, v, h2, h3⟩; exact ⟨h1, t, v, chosen_same h hl h2, h3⟩
  · rintro ⟨h1, t, v, h2, h3⟩; exact ⟨h1, t, v, chosen_same h.symm hl.symm h2, h3⟩

/-- C65, partial: GetClientType and GetBrowser ignore the case of letters if the literal texts among the client rules occur in the same way in
both spellings. Missing: the rules that are literal texts. -/
theorem C65_client_partial {q : Req} (hlen : q.ua.length < 2 ^ 32) {u' : Bytes} (h : CaseEq q.ua u') (hl : SameLiterals q.ua u') :
    uncached Regexp.lib.tables fnv1 .clientType { q with ua := u' } = uncached Regexp.lib.tables fnv1 .clientType q ∧
    (q.header = [] → uncached Regexp.lib.tables fnv1 .browser { q with ua := u' } = uncached Regexp.lib.tables fnv1 .browser q) := by
  constructor
  · cases hu : uncached Regexp.lib.tables fnv1 .clientType q with
    | none => exact (panics_same hlen h hl (by decide)).mp hu
    | some a =>
      have hok : uncached Regexp.lib.tables fnv1 .clientType { q with ua := u' } ≠ none := fun hn => by
        rw [(panics_same hlen h hl (by decide)).mpr hn] at hu; cases hu
      obtain ⟨a', ha'⟩ := Option.ne_none_iff_exists'.mp hok
      rw [ha']
      obtain ⟨t, v, h1, rfl⟩ | ⟨h1, rfl⟩ := C23_client_type hu
      · rw [← ha', C23_chosen hok (chosen_same h hl h1)]
      · obtain ⟨t, v, h2, rfl⟩ | ⟨h2, rfl⟩ := C23_client_type ha'
        · exact absurd h1 (chosen_same h.symm hl.symm h2).not_none
        · rfl
  · intro hh
    cases hu : uncached Regexp.lib.tables fnv1 .browser q with
    | none => exact (panics_same hlen h hl (by decide)).mp hu
    | some a =>
      have hok : uncached Regexp.lib.tables fnv1 .browser { q with ua := u' } ≠ none := fun hn => by
        rw [(panics_same hlen h hl (by decide)).mpr hn] at hu; cases hu
      obtain ⟨a', ha'⟩ := Option.ne_none_iff_exists'.mp hok
      rw [ha']
      obtain ⟨t, v, n, h1, h2, rfl⟩ | ⟨h1, rfl⟩ := C23_client_name (T := Regexp.lib.tables) (q := q) hh hu
      · obtain ⟨t', v', n', h1', h2', rfl⟩ | ⟨h1', rfl⟩ := C23_client_name (T := Regexp.lib.tables) (q := { q with ua := u' }) hh ha'
        · obtain ⟨-, rfl⟩ := (chosen_same h hl h1).unique h1'
          rcases h2 with ⟨h2, rfl⟩ | ⟨h2, h3⟩ <;> rcases h2' with ⟨h2', rfl⟩ | ⟨h2', h3'⟩
          · rfl
          · exact absurd h2 h2'
          · exact absurd h2' h2
          · rw [h3.unique h3']
        · exact absurd h1' (chosen_same h hl h1).not_none
      · obtain ⟨t', v', n', h1', h2', rfl⟩ | ⟨h1', rfl⟩ := C23_client_name (T := Regexp.lib.tables) (q := { q with ua := u' }) hh ha'
        · exact absurd h1 (chosen_same h.symm hl.symm h1').not_none
        · rfl

/-! The hypotheses are met by two spellings of wget. -/

/-- Evaluates `SameLiterals`; literal texts longer than the user agents are not looked at. -/
def sameLiteralsB (u u' : Bytes) : Bool :=
  Regexp.lib.tables.crIdx.all fun rows => rows.all fun v => decide (0 ≤ v.matchRI) ||
    (Nat.blt (v.match64.toNat / 2 ^ 32 + u.length) (v.match64.toNat % 2 ^ 32) ||
    (match sliceE? Regexp.lib.tables.crBuf v.match64 with | some l => containsSub u l == containsSub u' l | none => true))

theorem sameLiterals_of {u u' : Bytes} (hl : u.length = u'.length) (h : sameLiteralsB u u' = true) : SameLiterals u u' := by
  intro rows hr v hv h0 lit ht
  have h1 := List.all_eq_true.mp (List.all_eq_true.mp h rows hr) v hv
  rw [decide_eq_false (by omega), Bool.false_or, Bool.or_eq_true] at h1
  rcases h1 with h1 | h1
  · have h1 := Nat.le_of_ble_eq_true h1
    obtain ⟨a, z, -, h2, h3⟩ := ht
    constructor <;> intro hi <;> (have := hi.length_le; omega)
  · rw [sliceE_iff.mpr ht] at h1
    have h1 : containsSub u lit = containsSub u' lit := by simpa using h1
    rw [← containsSub_iff, ← containsSub_iff, h1]

theorem wget_literals : sameLiteralsB (buf (pat! "wget")) (buf (pat! "WGET")) = true := by decide +kernel

example : uncached Regexp.lib.tables fnv1 .browser { ua := buf (pat! "WGET") } = uncached Regexp.lib.tables fnv1 .browser { ua := buf (pat! "wget") } :=
  (C65_client_partial (q := { ua := buf (pat! "wget") }) (by decide +kernel) (by unfold CaseEq; decide +kernel) (sameLiterals_of (by decide +kernel) wget_literals)).2 rfl

/-- With the filter for libraries the answer is wget's. -/
example : uncached Regexp.lib.tables fnv1 .clientType { ua := buf (pat! "WGET"), mc := ClientTypeLibrary } = some (.clientType ClientTypeLibrary) := by decide +kernel

end Verif

import Verif.Proofs.PatternPlain
import Verif.Props.RuleFiles
/-
C78–C80: what the patterns of rule files mean, for the modelled regexp library.
-/
namespace Verif.Regexp

open Verif.Compiler

/-! ### C78 -/

/-- C78, matching: a pattern matches a text iff some part of the text, starting where a rune starts, belongs to the language of the pattern. -/
theorem C78_found {p : Bytes} {rx : Rx} (h : parse p = some rx) (b : Bytes) :
    (compile p).isMatch b = true ↔ ∃ i j, Boundary b i ∧ Lang b rx i j := compile_isMatch h b

/-- The reported offsets of group `n` are those of the latest capture, -1 if there was none. -/
def Reported (m : List Int) (n : Nat) (c : Caps) : Prop :=
  (∃ lo hi : Nat, (∃ l l', c = l ++ (n, lo, hi) :: l' ∧ ∀ x ∈ l, x.1 ≠ n) ∧ m[2 * n]? = some (lo : Int) ∧ m[2 * n + 1]? = some (hi : Int)) ∨
  ((∀ x ∈ c, x.1 ≠ n) ∧ m[2 * n]? = some (-1) ∧ m[2 * n + 1]? = some (-1))

theorem lookup_first {c : Caps} {n : Nat} :
    (∃ lo hi, c.lookup n = some (lo, hi) ∧ ∃ l l', c = l ++ (n, lo, hi) :: l' ∧ ∀ x ∈ l, x.1 ≠ n) ∨ (c.lookup n = none ∧ ∀ x ∈ c, x.1 ≠ n) := by
  induction c with
  | nil => exact .inr ⟨rfl, fun x hx => by cases hx⟩
  | cons y c ih =>
    obtain ⟨k, lo, hi⟩ := y
    by_cases hk : n = k
    · subst hk
      exact .inl ⟨lo, hi, List.lookup_cons_self, [], c, rfl, fun x hx => by cases hx⟩
    · have e : List.lookup n ((k, lo, hi) :: c) = List.lookup n c := by
        rw [List.lookup_cons, beq_eq_false_iff_ne.mpr hk]
      rcases ih with ⟨lo', hi', h1, l, l', rfl, h2⟩ | ⟨h1, h2⟩
      · refine .inl ⟨lo', hi', by rw [e, h1], (k, lo, hi) :: l, l', rfl, fun x hx => ?_⟩
        rcases List.mem_cons.mp hx with rfl | hx
        · exact fun h => hk h.symm
        · exact h2 x hx
      · refine .inr ⟨by rw [e, h1], fun x hx => ?_⟩
        rcases List.mem_cons.mp hx with rfl | hx
        · exact fun h => hk h.symm
        · exact h2 x hx

/-- C78, the match: it starts as far left as possible; of the ways to match from there it is the one Perl would find first; the offsets of a group
are those of its last capture. -/
theorem C78_match {p b : Bytes} {m : List Int} (h : (compile p).find b = some m) :
    ∃ rx i j c w, parse p = some rx ∧ Boundary b i ∧ Way b rx i j c w ∧ (∀ i' j', Boundary b i' → Lang b rx i' j' → i ≤ i') ∧
      (∀ j' c' w', Way b rx i j' c' w' → ¬ Preferred w' w) ∧ m.length = 2 * (groups p + 1) ∧ ∀ n, n ≤ groups p → Reported m n ((0, i, j) :: c) := by
  obtain ⟨rx, i, j, c, w, h1, h2, rfl⟩ := compile_found h
  refine ⟨rx, i, j, c, w, h1, h2.start, h2.way, ?_, ?_, vector_length _ _, fun n hn => ?_⟩
  · exact h2.leftmost
  · exact h2.first
  · have g0 := vector_get ((0, i, j) :: c) (groups p) n hn 0 (by omega)
    have g1 := vector_get ((0, i, j) :: c) (groups p) n hn 1 (by omega)
    rw [Nat.add_zero] at g0
    unfold Reported
    rw [g0, g1]
    unfold vector.group
    rcases lookup_first (c := (0, i, j) :: c) (n := n) with ⟨lo, hi, k1, k2⟩ | ⟨k1, k2⟩
    · rw [k1]; exact .inl ⟨lo, hi, k2, rfl, rfl⟩
    · rw [k1]; exact .inr ⟨k2, rfl, rfl⟩

/-- C78, groups: the text a group captures belongs to the language of the inside of the group. -/
theorem C78_group {p b : Bytes} {rx : Rx} (hp : parse p = some rx) {n : Nat} (hn : 1 ≤ n) {t : Bytes} (h : Captures (compile p) b n t) :
    ∃ x lo hi, Rx.Group n x rx ∧ Lang b x lo hi ∧ lo ≤ hi ∧ hi ≤ b.length ∧ t = (b.drop lo).take (hi - lo) := by
  obtain ⟨x, lo, hi, h1, h2, h3, h4, h5⟩ := captured hp hn h
  exact ⟨x, lo, hi, h1, h2, h4, h3, h5⟩

/-- C78, ASCII: in an ASCII text a match can start at every offset. -/
theorem C78_ascii {b : Bytes} (h : ∀ c ∈ b, c.toNat < 0x80) (i : Nat) : Boundary b i ↔ i ≤ b.length :=
  ⟨Boundary.le, boundary_all h⟩

/-- C78, plain text: a pattern without special characters matches exactly the texts it occurs in, whatever else is in them. -/
theorem C78_literal {p : Bytes} (h : PlainText p) (b : Bytes) : (compile p).isMatch b = true ↔ p <:+: b := by
  rw [C78_found (parse_plainText h)]
  constructor
  · rintro ⟨i, j, hb, hl⟩
    obtain ⟨⟨t, ht⟩, -⟩ := (lang_plain h hb.le).mp hl
    exact ⟨b.take i, t, by rw [List.append_assoc, ht, List.take_append_drop]⟩
  · rintro ⟨a, z, rfl⟩
    cases p with
    | nil => exact ⟨0, 0, .zero, .empty⟩
    | cons c p =>
      refine ⟨a.length, a.length + (c :: p).length, ?_, (lang_plain h (by simp only [List.length_append]; omega)).mpr ⟨?_, rfl⟩⟩
      · refine boundary_ascii (c := c) ?_ (h c List.mem_cons_self).1
        rw [List.append_assoc, List.getElem?_append_right (Nat.le_refl _), Nat.sub_self]
        rfl
      · rw [List.append_assoc, List.drop_left]
        exact List.prefix_append _ _

/-- C78, plain text in any case. -/
theorem C78_literal_any_case {p : Bytes} (h : PlainText p) (b : Bytes) :
    (compile (anyCase p)).isMatch b = true ↔ ∃ i j, Boundary b i ∧ Spells b (p.map UInt8.toNat) i j := by
  rw [anyCase, C78_found (parse_plainAny h)]
  simp only [litOf, lang_lit]

/-- Leftmost, and greedy or lazy as the pattern says. -/
example : (compile (ascii "a(b*?)(b*)c?")).find (ascii "xabbc") = some [1, 5, 2, 2, 2, 4] := by decide +kernel
example : (parse (ascii "a|(ab)")).isSome = true ∧ (compile (ascii "a|(ab)")).find (ascii "ab") = some [0, 1, -1, -1] := by decide +kernel
example : Captures (compile (ascii "v(\\d+)")) (ascii "xv12") 1 (ascii "12") :=
  ⟨[1, 4, 2, 4], ascii "xv", [], by decide +kernel, by decide +kernel, by decide +kernel, by decide +kernel⟩
example : PlainText (ascii "MDDR") := by unfold PlainText; decide +kernel

/-! ### C79 -/

theorem atWord_eq (p : Bytes) : atWord p = ascii "(?i)" ++ (wordText ++ (ascii "(?:" ++ (p ++ [41]))) := by
  have e : ascii "(?i)(?:^|[^A-Z0-9\\-_]|[^A-Z0-9\\-]_|sprd-|MZ-)(?:" = ascii "(?i)" ++ (wordText ++ ascii "(?:") := by decide +kernel
  have e' : ascii ")" = [41] := by decide +kernel
  rw [atWord, e, e']
  simp only [List.append_assoc]

/-- C79: a client pattern matches iff its rule's pattern, in any case, matches where a word may start. -/
theorem C79_word {p : Bytes} {rx : Rx} (h : parse (anyCase p) = some rx) (b : Bytes) :
    (compile (atWord p)).isMatch b = true ↔ ∃ i j, WordStart b i ∧ Lang b rx i j := by
  rw [atWord_eq, C78_found (parse_atWord h)]
  constructor
  · rintro ⟨i, j, hi, hl⟩
    obtain ⟨k, h1, h2⟩ := lang_cat.mp hl
    exact ⟨k, j, word_iff.mp ⟨i, hi, h1⟩, h2⟩
  · rintro ⟨k, j, hk, hl⟩
    obtain ⟨i, h1, h2⟩ := word_iff.mpr hk
    exact ⟨i, j, h1, .cat h2 hl⟩

/-- C79, word starts in ASCII text: a word may start at offset `i` iff it is 0, or the byte before is no letter, digit, `-` or `_`, or it is `_`
after such a byte, or `sprd-` or `MZ-` (in any case) ends there. -/
theorem C79_ascii {b : Bytes} (h : ∀ c ∈ b, c.toNat < 0x80) (i : Nat) : WordStart b i ↔
    i = 0 ∨ (∃ c, 1 ≤ i ∧ b[i - 1]? = some c ∧ ¬ WordRune c.toNat ∧ c ≠ 95) ∨
    (∃ c, 2 ≤ i ∧ b[i - 2]? = some c ∧ ¬ WordRune c.toNat ∧ b[i - 1]? = some 95) ∨
    ∃ k, Spells b ((ascii "sprd-").map UInt8.toNat) k i ∨ Spells b ((ascii "MZ-").map UInt8.toNat) k i := by
  have rune : ∀ k r w, RuneAt b k r w → ∃ c : UInt8, b[k]? = some c ∧ r = c.toNat ∧ w = 1 := by
    intro k r w hr
    have hk := hr.1
    have hc := h _ (List.getElem_mem hk)
    have hr' : RuneAt b k b[k].toNat 1 := (runeAt_ascii hc).mpr ⟨by rw [UInt8.ofNat_toNat]; exact List.getElem?_eq_getElem hk, rfl⟩
    obtain ⟨h1, h2⟩ := hr.unique hr'
    exact ⟨b[k], List.getElem?_eq_getElem hk, h1, h2⟩
  have rune' : ∀ k (c : UInt8), b[k]? = some c → RuneAt b k c.toNat 1 := by
    intro k c hk
    obtain ⟨hlt, rfl⟩ := List.getElem?_eq_some_iff.mp hk
    exact (runeAt_ascii (h _ (List.getElem_mem hlt))).mpr ⟨by rw [UInt8.ofNat_toNat]; exact hk, rfl⟩
  unfold WordStart
  constructor
  · rintro (h | ⟨k, r, w, -, h2, h3, h4, rfl⟩ | ⟨k, r, w, -, h2, h3, h4, rfl⟩ | ⟨k, -, h⟩)
    · exact .inl h
    · obtain ⟨c, g1, rfl, rfl⟩ := rune _ _ _ h2
      exact .inr (.inl ⟨c, by omega, g1, h3, fun e => h4 (by rw [e]; rfl)⟩)
    · obtain ⟨c, g1, rfl, rfl⟩ := rune _ _ _ h2
      exact .inr (.inr (.inl ⟨c, by omega, g1, h3, h4⟩))
    · exact .inr (.inr (.inr ⟨k, h⟩))
  · rintro (h | ⟨c, h1, h2, h3, h4⟩ | ⟨c, h1, h2, h3, h4⟩ | ⟨k, hk⟩)
    · exact .inl h
    · have hr := rune' _ _ h2
      exact .inr (.inl ⟨i - 1, c.toNat, 1, boundary_all h (by have := hr.1; omega), hr, h3, fun e => h4 (UInt8.toNat_inj.mp e), by omega⟩)
    · have hr := rune' _ _ h2
      exact .inr (.inr (.inl ⟨i - 2, c.toNat, 1, boundary_all h (by have := hr.1; omega), hr, h3,
        by rw [show i - 2 + 1 = i - 1 by omega]; exact h4, by omega⟩))
    · refine .inr (.inr (.inr ⟨k, boundary_all h ?_, hk⟩))
      have first : ∀ {c l i j}, Spells b (c :: l) i j → i ≤ b.length := by
        intro c l i j h
        cases h with
        | cons h _ _ => exact Nat.le_of_lt h.1
      rcases hk with hk | hk
      · have e : (ascii "sprd-").map UInt8.toNat = 115 :: [112, 114, 100, 45] := by decide +kernel
        rw [e] at hk
        exact first hk
      · have e : (ascii "MZ-").map UInt8.toNat = 77 :: [90, 45] := by decide +kernel
        rw [e] at hk
        exact first hk

/-- C79, vendors: a fragment without alternatives matches iff it occurs, case counting, followed by something that is no lower-case letter or
digit. -/
theorem C79_vendor {p : Bytes} {rx : Rx} (h : parse p = some rx) (hi : ∀ q, p ≠ ascii "(?i)" ++ q) (hb : 124 ∉ p) (b : Bytes) :
    (compile (p ++ ascii "[^a-z0-9]+")).isMatch b = true ↔
      ∃ i j r w, Boundary b i ∧ Lang b rx i j ∧ RuneAt b j r w ∧ ¬ (48 ≤ r ∧ r ≤ 57) ∧ ¬ (97 ≤ r ∧ r ≤ 122) := by
  obtain ⟨l, rfl, hg⟩ := parse_gap h hi hb
  have hr : ∀ r, (InRanges false [(48, 57), (97, 122)] r ↔ true = false) ↔ ¬ (48 ≤ r ∧ r ≤ 57) ∧ ¬ (97 ≤ r ∧ r ≤ 122) := by
    intro r
    constructor
    · intro h
      refine ⟨fun g => ?_, fun g => ?_⟩
      · exact Bool.noConfusion (h.mp ⟨r, .inl rfl, 48, 57, by simp, g.1, g.2⟩)
      · exact Bool.noConfusion (h.mp ⟨r, .inl rfl, 97, 122, by simp, g.1, g.2⟩)
    · intro h
      refine iff_of_false ?_ (fun g => Bool.noConfusion g)
      rintro ⟨x, rfl | ⟨g, -⟩, lo, hi, hm, h1, h2⟩
      · simp only [List.mem_cons, List.not_mem_nil, or_false, Prod.mk.injEq] at hm
        omega
      · cases g
  rw [C78_found hg]
  constructor
  · rintro ⟨i, k, hi, hl⟩
    obtain ⟨j, h1, h2⟩ := lang_append.mp hl
    obtain ⟨k', h3, -⟩ := lang_cat.mp h2
    obtain ⟨r, w, h4, h5, -⟩ := lang_cls.mp h3
    obtain ⟨h6, h7⟩ := (hr r).mp h5
    exact ⟨i, j, r, w, hi, h1, h4, h6, h7⟩
  · rintro ⟨i, j, r, w, hi, h1, h2, h3, h4⟩
    exact ⟨i, j + w, hi, lang_append.mpr ⟨j, h1, .cat (.cls h2 ((hr r).mpr ⟨h3, h4⟩)) .stop⟩⟩

/-- C79 for fragments with alternatives. -/
def C79VendorClaim : Prop := ∀ p rx b, parse p = some rx → (compile (p ++ ascii "[^a-z0-9]+")).isMatch b = true →
  ∃ i j r w, Lang b rx i j ∧ RuneAt b j r w ∧ ¬ (48 ≤ r ∧ r ≤ 57) ∧ ¬ (97 ≤ r ∧ r ≤ 122)

/-- C79 for fragments with alternatives is refuted: what has to follow is appended to the last alternative only. -/
theorem C79_vendor_refuted : ¬ C79VendorClaim := by
  intro h
  have hp : parse (ascii "A|B") = some (.alt (.cls false false [(65, 65)]) (.cls false false [(66, 66)])) := by decide +kernel
  obtain ⟨i, j, r, w, h1, h2, -⟩ := h _ _ (ascii "A") hp (by decide +kernel)
  have hj : 1 ≤ j := by
    rcases lang_alt.mp h1 with h1 | h1
    · obtain ⟨r, w, g, -, rfl⟩ := lang_cls.mp h1; have := g.width; omega
    · obtain ⟨r, w, g, -, rfl⟩ := lang_cls.mp h1; have := g.width; omega
  have := h2.1
  have e : (ascii "A").length = 1 := by decide
  omega

end Verif.Regexp

namespace Verif.Compiler

open Verif.Regexp (parse Boundary Lang WordStart)

section
variable {env : Env} {hash : Bytes → UInt64} {r : Rules} {T : Tables} {H : Bytes → UInt64} {q : Req}
  (hp : Package env Regexp.compile hash r T) (hr : RulesOK env Regexp.compile r q.ua) (hl : q.ua.length < 2 ^ 32)
include hp hr hl

/-- C79, client categories: GetClientType names a category only if the user agent contains the text of one of the rules of that category, or the
pattern of one matches at the start of a word. -/
theorem C79_client {ty : ClientType} (h : uncached T H .clientType q = some (.clientType ty)) (hty : ty ≠ 0) :
    ∃ i f t, (ty, i) ∈ clientOrder ∧ r.client[i]? = some f ∧ t ∈ f ∧
      ((¬ Special t.regex ∧ t.regex ≠ [] ∧ t.regex <:+: q.ua) ∨
       ∃ p, patternOf env env.replClient t.regex p ∧ ∀ rx, parse (anyCase p) = some rx → ∃ i j, WordStart q.ua i ∧ Lang q.ua rx i j) := by
  rcases (C68_client_type (H := H) hp hr hl ty).mp h with ⟨t, a, z, i, f, h1, h2, h3, h4, h5⟩ | ⟨-, h⟩
  · obtain ⟨l, l', e, hh, -⟩ := h5
    refine ⟨i, f, t, by rw [h1]; simp, h4, by rw [e]; simp, ?_⟩
    rcases hh with hh | ⟨p, g1, g2⟩
    · exact .inl hh
    · exact .inr ⟨p, g1, fun rx hx => (Regexp.C79_word hx _).mp g2⟩
  · exact absurd h hty

end

/-! ### C80 -/

open Verif.Regexp (PlainText NumberLike DigitsAndDots Spells)

theorem enginePattern_gecko : anyCase (enginePattern (ascii "Gecko")) = ascii "(?i)[ ](?:rv[: ]([0-9\\.]+)).*gecko/[0-9.]+" := by decide +kernel

theorem enginePattern_other {n : Bytes} (h : n ≠ ascii "Gecko") :
    anyCase (enginePattern n) = ascii "(?i)" ++ ((if n = ascii "Blink" then ascii "Chrome" else n) ++ Regexp.engineText) := by
  unfold anyCase enginePattern
  rw [if_neg h]
  rfl

theorem engineName_plain {n : Bytes} (h : PlainText n) : PlainText (if n = ascii "Blink" then ascii "Chrome" else n) := by
  split
  · unfold PlainText; decide +kernel
  · exact h

/-- C80, no panic: the version patterns made for engines with plain names have a group that takes part in every match, which is the condition of
C68–C71 on engines. -/
theorem C80_group {n : Bytes} (h : PlainText n) : MandatoryGroup (Regexp.compile (anyCase (enginePattern n))) := by
  by_cases hg : n = ascii "Gecko"
  · subst hg
    rw [enginePattern_gecko]
    exact Regexp.compile_mandatory (by decide +kernel)
  · rw [enginePattern_other hg]
    exact Regexp.engine_mandatory (engineName_plain h)

theorem slice_get {b : Bytes} {lo hi k : Nat} (h : k < hi - lo) : ((b.drop lo).take (hi - lo))[k]? = b[lo + k]? := by
  rw [List.getElem?_take, if_pos h, List.getElem?_drop]

theorem numberLike_of {b : Bytes} {lo hi : Nat} (hh : hi ≤ b.length) (h : Regexp.Lang b Regexp.engineVersionRx lo hi) :
    NumberLike ((b.drop lo).take (hi - lo)) := by
  obtain ⟨h1, h2, h3, h4⟩ := Regexp.engineVersion_lang h
  have hlen : ((b.drop lo).take (hi - lo)).length = hi - lo := by rw [List.length_take, List.length_drop]; omega
  refine ⟨by omega, ?_, ?_, fun hm => ?_⟩
  · obtain ⟨c, g1, g2⟩ := h3 lo (by omega) (by omega)
    exact ⟨c, by rw [List.head?_eq_getElem?, slice_get (by omega)]; exact g1, g2⟩
  · obtain ⟨c, g1, g2⟩ := h4 (hi - 1) (by omega) (by omega)
    exact ⟨c, by rw [List.getLast?_eq_getElem?, hlen, slice_get (by omega), show lo + (hi - lo - 1) = hi - 1 by omega]; exact g1, g2⟩
  · obtain ⟨k, hk⟩ := List.mem_iff_getElem?.mp hm
    have hlt : k < hi - lo := by
      have := (List.getElem?_eq_some_iff.mp hk).1
      omega
    rw [slice_get hlt] at hk
    obtain ⟨c, g1, g2⟩ := h2 (lo + k) (by omega) (by omega)
    rw [hk] at g1
    cases g1
    exact g2 rfl

theorem dotsDigits_of {b : Bytes} {lo hi : Nat} (hh : hi ≤ b.length) (h : Regexp.Lang b (Regexp.plusRx Regexp.dotDigitRx) lo hi) :
    DigitsAndDots ((b.drop lo).take (hi - lo)) := by
  obtain ⟨h5, h6⟩ := Regexp.dotDigits_lang h
  have hlen : ((b.drop lo).take (hi - lo)).length = hi - lo := by rw [List.length_take, List.length_drop]; omega
  refine ⟨fun e => ?_, fun c hc => ?_⟩
  · rw [e] at hlen; simp only [List.length_nil] at hlen; omega
  · obtain ⟨k, hk⟩ := List.mem_iff_getElem?.mp hc
    have hlt : k < hi - lo := by
      have := (List.getElem?_eq_some_iff.mp hk).1
      omega
    rw [slice_get hlt] at hk
    obtain ⟨c', g1, g2⟩ := h6 (lo + k) (by omega) (by omega)
    rw [hk] at g1
    cases g1
    exact g2

/-- C80, shape and place: an engine version is empty, or stands in the user agent after the engine's name (Chrome for Blink, any case) and blanks
or a slash, begins and ends with a digit and has no newline in it; that of Gecko is made of digits and dots. -/
theorem C80_version {u : Bytes} {r : Rules} {n s : Bytes} (hn : PlainText n) (h : EngineVersionSays Regexp.compile u r n s) :
    s = [] ∨ (n = ascii "Gecko" ∧ DigitsAndDots s) ∨
    (n ≠ ascii "Gecko" ∧ NumberLike s ∧ ∃ i k l, Boundary u i ∧ Spells u ((if n = ascii "Blink" then ascii "Chrome" else n).map UInt8.toNat) i k ∧ k < l ∧
      (∀ x, k ≤ x → x < l → ∃ c, u[x]? = some c ∧ c ∈ ascii "\t\n\x0c\r /") ∧ s <+: u.drop l) := by
  cases h with
  | group hne hc =>
    by_cases hg : n = ascii "Gecko"
    · right; left
      refine ⟨hg, ?_⟩
      subst hg
      rw [enginePattern_gecko] at hc
      have hp : ((parse (ascii "(?i)[ ](?:rv[: ]([0-9\\.]+)).*gecko/[0-9.]+")).map (Regexp.insides 1)) = some [Regexp.plusRx Regexp.dotDigitRx] := by decide +kernel
      obtain ⟨rx, hp, hi⟩ := Option.map_eq_some_iff.mp hp
      obtain ⟨x, lo, hi, h1, h2, h3, h4, rfl⟩ := Regexp.captured hp (Nat.le_refl 1) hc
      have hx := h1.mem
      rename_i hin
      rw [hin] at hx
      rw [List.mem_singleton.mp hx] at h2
      exact dotsDigits_of h3 h2
    · right; right
      rw [enginePattern_other hg] at hc
      obtain ⟨i, k, lo, hi, h1, h2, h3, h4, h5, h6, rfl⟩ := Regexp.engine_captured (engineName_plain hn) hc
      exact ⟨hg, numberLike_of h6 h5, i, k, lo, h1, h2, h3, h4, List.take_prefix _ _⟩
  | noMatch => exact .inl rfl
  | unknown => exact .inl rfl

/-- C80, getter: so is what GetEngineVersionString answers. -/
theorem C80_getter {env : Env} {hash : Bytes → UInt64} {r : Rules} {T : Tables} {H : Bytes → UInt64} {q : Req}
    (hp : Package env Regexp.compile hash r T) (hr : RulesOK env Regexp.compile r q.ua) (hl : q.ua.length < 2 ^ 32) (hth : ThresholdsOK r)
    (hn : ∀ n, NamesEngine r n → PlainText n) {s : Bytes} (h : uncached T H .engineVersionString q = some (.text s)) :
    s = [] ∨ DigitsAndDots s ∨ NumberLike s := by
  rcases (C68_engine_version (H := H) hp hr hl hth s).mp h with ⟨t, n, -, -, hv⟩ | ⟨-, rfl⟩ | ⟨-, rfl⟩
  · by_cases hne : NamesEngine r n
    · rcases C80_version (hn n hne) hv with h | ⟨-, h⟩ | ⟨-, h, -⟩
      · exact .inl h
      · exact .inr (.inl h)
      · exact .inr (.inr h)
    · cases hv with
      | group g => exact absurd g hne
      | noMatch g => exact absurd g hne
      | unknown => exact .inl rfl
  · exact .inl rfl
  · exact .inl rfl

/-- C80, stricter: engine versions consist of digits and dots. -/
def C80Claim : Prop := ∀ (env : Env) (hash : Bytes → UInt64) (r : Rules) (T : Tables) (H : Bytes → UInt64) (q : Req) (s : Bytes),
  Package env Regexp.compile hash r T → RulesOK env Regexp.compile r q.ua → q.ua.length < 2 ^ 32 → ThresholdsOK r → (∀ n, NamesEngine r n → PlainText n) →
    uncached T H .engineVersionString q = some (.text s) → s ≠ [] → DigitsAndDots s

/-! ### Non-vacuity -/

instance (n : Bytes) : Decidable (PlainText n) := inferInstanceAs (Decidable (∀ c ∈ n, _ ∧ _))

/-- Rule `rs` has a pattern with at least one group if the text refers to group 1. -/
def refB (repl : Bytes → Option Bytes) (wrap : Bytes → Bytes) (ix : Bytes → Int8) (rs ver : Bytes) : Bool :=
  ver.headD 0 ≠ 36 || match normalizeRegex rs with
    | none => true
    | some n => ix ver.tail = 1 && 1 ≤ Regexp.groups (wrap ((repl n).getD n))

theorem ref_ok {env : Env} {repl : Bytes → Option Bytes} {wrap : Bytes → Bytes} {ix : Bytes → Int8} {rs ver p u : Bytes} (h : refB repl wrap ix rs ver = true)
    (hp : patternOf env repl rs p) : RefOK (Regexp.compile (wrap p)) u ver ix := by
  rintro x rfl -
  obtain ⟨-, n, h1, rfl, -⟩ := hp
  unfold refB at h
  rw [h1] at h
  simp only [List.headD_cons, ne_eq, not_true, decide_false, Bool.false_or, Bool.and_eq_true, decide_eq_true_eq, List.tail_cons] at h
  rw [of_decide_eq_true h.1]
  refine .inr ⟨by decide, ?_, by decide⟩
  have : (Regexp.compile (wrap ((repl n).getD n))).ncap = Regexp.groups (wrap ((repl n).getD n)) := rfl
  rw [this]
  have e : (1 : Int8).toInt = 1 := by decide
  omega

theorem real_rulesOK (u : Bytes) : RulesOK demoEnv Regexp.compile demoFull u where
  clientFiles := (demoLib_rulesOK u).clientFiles
  clientRef := fun f hf t ht p hp => ref_ok ((by decide +kernel : ∀ f ∈ demoFull.client, ∀ t ∈ f, refB demoEnv.replClient atWord clientIx t.regex t.version = true) f hf t ht) hp
  clientEngine := (demoLib_rulesOK u).clientEngine
  os := (demoLib_rulesOK u).os
  osRef := fun t ht p hp => ⟨ref_ok ((by decide +kernel : ∀ t ∈ demoFull.os, refB demoEnv.replOS anyCase osIx t.regex t.name = true) t ht) hp,
    fun _ => ref_ok ((by decide +kernel : ∀ t ∈ demoFull.os, refB demoEnv.replOS anyCase osIx t.regex t.version = true) t ht) hp⟩
  osVersionRef := fun t ht v hv p hp => ref_ok ((by decide +kernel : ∀ t ∈ demoFull.os, ∀ v ∈ t.versions, refB (fun _ => none) anyCase osIx v.regex v.version = true) t ht v hv) hp
  deviceFiles := (demoLib_rulesOK u).deviceFiles
  models := (demoLib_rulesOK u).models

theorem demo_engines (n : Bytes) (h : NamesEngine demoFull n) : PlainText n := by
  obtain ⟨-, f, hf, t, ht, en, he, h⟩ := h
  have := (by decide +kernel : ∀ f ∈ demoFull.client, ∀ t ∈ f, ∀ en ∈ t.engine, PlainText en.default ∧ ∀ v ∈ en.versions, PlainText v.2) f hf t ht en he
  rcases h with rfl | h
  · exact this.1
  · obtain ⟨v, hv, rfl⟩ := List.mem_map.mp h
    exact this.2 v hv

def realPackage : Tables :=
  tablesOf Regexp.compile (Regexp.compile (ascii "Chrome/.+ Safari/537.36")) (Regexp.compile (ascii "Tab")) (Regexp.compile (ascii "Mob")) (outOf demoHash demoFull)

/-- The demo rules compiled with the modelled regexp library. -/
theorem real_package : Package demoEnv Regexp.compile demoHash demoFull realPackage where
  made := by
    have h1 : compile demoEnv demoHash demoFull = some (outOf demoHash demoFull) := by
      obtain ⟨o, ho⟩ := Option.isSome_iff_exists.mp (by decide +kernel : (compile demoEnv demoHash demoFull).isSome = true)
      unfold outOf
      rw [ho]; rfl
    have hs : Small (outOf demoHash demoFull).client.st ∧ Small (outOf demoHash demoFull).os.2 ∧ Small (outOf demoHash demoFull).device.2 ∧
      Small (outOf demoHash demoFull).vendor.2 ∧ Small (outOf demoHash demoFull).hint.2 := by decide +kernel
    exact ⟨outOf demoHash demoFull, _, _, _, h1, ⟨hs.1, hs.2.1, hs.2.2.1, hs.2.2.2.1, hs.2.2.2.2⟩, rfl⟩
  lib_wf := fun p => Regexp.compile_wf p
  src := fun _ => rfl
  engines := fun n h => C80_group (demo_engines n h)

/-- C80, stricter, is refuted: the dot in the pattern made for engines is not escaped and stands for any character. -/
theorem C80_digits_refuted : ¬ C80Claim := by
  intro h
  have := h _ _ _ _ demoHash { ua := ascii "Chrome/3 WebKit/5a3" } (ascii "5a3") real_package (real_rulesOK _) (by decide +kernel) demo_thresholds demo_engines
    (by decide +kernel) (by decide)
  have := this.2 97 (by decide +kernel)
  revert this
  decide

/-- The hypotheses of C79 and C80 hold together with answers that are not trivial. -/
example : uncached realPackage demoHash .engineVersionString { ua := ascii "x chrome/3 webkit / 5.3" } = some (.text (ascii "5.3")) ∧
    uncached realPackage demoHash .clientType { ua := ascii "x chrome/3 webkit / 5.3" } = some (.clientType ClientTypeBrowser) := by decide +kernel
example : NamesEngine demoFull (ascii "Blink") ∧ Captures (Regexp.compile (anyCase (enginePattern (ascii "Blink")))) (ascii "x CHROME/30.1") 1 (ascii "30.1") :=
  ⟨⟨by decide, [{ regex := ascii "Chrome/(\\d+)", name := ascii "Chrome", version := ascii "$1", engine := some ⟨ascii "WebKit", [(ascii "28", ascii "Blink")]⟩ },
     { regex := ascii "(", name := ascii "Bad" }], List.mem_cons_of_mem _ List.mem_cons_self, _, List.mem_cons_self, _, rfl, .inr (by decide +kernel)⟩,
   ⟨[2, 13, 9, 13], ascii "x CHROME/", [], by decide +kernel, by decide +kernel, by decide +kernel, by decide +kernel⟩⟩
/-- A client pattern does not match inside a word, but does after `sprd-`. -/
example : (Regexp.compile (atWord (ascii "Chrome/(\\d+)"))).isMatch (ascii "Headchrome/3") = false ∧
    (Regexp.compile (atWord (ascii "Chrome/(\\d+)"))).isMatch (ascii "SPRD-chrome/3") = true ∧
    (Regexp.compile (atWord (ascii "Chrome/(\\d+)"))).isMatch (ascii "x chrome/3") = true := by decide +kernel

end Verif.Compiler

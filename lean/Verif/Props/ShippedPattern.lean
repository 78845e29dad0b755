import Verif.Proofs.ShippedPattern
import Verif.Props.Pattern
import Verif.Props.Shipped
/-
C79, C80 for the shipped tables, with the modelled regexp library.
-/
namespace Verif

open Data Regexp Compiler

/-- C79, shipped clients: every regexp of the client tables matches iff the pattern of its rule matches, in any case, where a word may start. -/
theorem C79_shipped_client {re : Re} (h : re ∈ Regexp.lib.tables.crRe) :
    ∃ p rx, re.src = atWord p ∧ parse (anyCase p) = some rx ∧ ∀ u, re.isMatch u = true ↔ ∃ i j, WordStart u i ∧ Lang u rx i j := by
  obtain ⟨c, hc, rfl⟩ := List.mem_map.mp h
  obtain ⟨i, hi⟩ := List.mem_iff_getElem?.mp hc
  obtain ⟨p, rx, h1, h2, -⟩ := wordOK_spec (allFrom_get crRe_word hi)
  refine ⟨p, rx, h1, h2, fun u => ?_⟩
  show (Regexp.compile (buf c)).isMatch u = true ↔ _
  rw [h1]
  exact C79_word h2 u

/-- C79, shipped clients: when GetClientType names a category, the text of a rule of this category occurs in the user agent, or the pattern of one
matches, in any case, where a word may start. -/
theorem C79_shipped_category {H : Bytes → UInt64} {q : Req} {ty : ClientType} (h : uncached Regexp.lib.tables H .clientType q = some (.clientType ty))
    (hty : ty ≠ 0) : ∃ i rows v, (ty, i) ∈ clientOrder ∧ Regexp.lib.tables.crIdx[i]? = some rows ∧ v ∈ rows ∧
      ((v.matchRI < 0 ∧ ∃ s, s ≠ [] ∧ Text Regexp.lib.tables.crBuf v.match64 s ∧ s <:+: q.ua) ∨
       ∃ re p rx, Regexp.lib.tables.crRe[v.matchRI.toNat]? = some re ∧ re.src = atWord p ∧ parse (anyCase p) = some rx ∧
         ∃ i j, WordStart q.ua i ∧ Lang q.ua rx i j) := by
  obtain ⟨t, v, hc, e⟩ | ⟨-, e⟩ := C23_client_type h
  · cases e
    obtain ⟨a, z, i, rows, h1, -, -, h4, h5⟩ := hc
    refine ⟨i, rows, v, by rw [h1]; simp, h4, h5.mem.1, ?_⟩
    obtain ⟨-, re, h6, h7⟩ | h6 := h5.mem.2
    · obtain ⟨p, rx, g1, g2, g3⟩ := C79_shipped_client (List.mem_of_getElem? h6)
      exact .inr ⟨re, p, rx, h6, g1, g2, (g3 _).mp h7⟩
    · exact .inl h6
  · cases e
    exact absurd rfl hty

/-- A user agent of a library, by the shipped tables and the modelled regexp package. -/
example : uncached Regexp.lib.tables (fun _ => 0) .clientType { ua := ascii "curl/7.1", mc := ClientTypeLibrary } = some (.clientType ClientTypeLibrary) := by
  decide +kernel

/-- C79, shipped vendors: every regexp of the vendor table matches iff its fragment occurs followed by something other than a lower-case letter or
digit. -/
theorem C79_shipped_vendor {re : Re} (h : re ∈ Regexp.lib.tables.vrRe) :
    ∃ p rx, re.src = p ++ ascii "[^a-z0-9]+" ∧ parse p = some rx ∧ ∀ u, re.isMatch u = true ↔
      ∃ i j r w, Boundary u i ∧ Lang u rx i j ∧ RuneAt u j r w ∧ ¬ (48 ≤ r ∧ r ≤ 57) ∧ ¬ (97 ≤ r ∧ r ≤ 122) := by
  obtain ⟨c, hc, rfl⟩ := List.mem_map.mp h
  obtain ⟨p, rx, h1, h2, h3, h4⟩ := vendorOK_spec (List.all_eq_true.mp vrRe_gap c hc)
  refine ⟨p, rx, h1, h4, fun u => ?_⟩
  show (Regexp.compile (buf c)).isMatch u = true ↔ _
  rw [h1]
  exact C79_vendor h4 h2 h3 u

theorem crEvre_inside : ∀ c ∈ crEvre, ∃ rx, parse (buf c) = some rx ∧ (insides 1 rx = [engineVersionRx] ∨ insides 1 rx = [plusRx dotDigitRx]) := by
  have h : ∀ c ∈ crEvre, ((parse (buf c)).any fun rx => decide (insides 1 rx = [engineVersionRx] ∨ insides 1 rx = [plusRx dotDigitRx])) = true := by decide +kernel
  intro c hc
  have := h c hc
  cases hp : parse (buf c) with
  | none => rw [hp] at this; cases this
  | some rx =>
    rw [hp] at this
    exact ⟨rx, rfl, of_decide_eq_true this⟩

/-- C80, shipped tables: GetEngineVersionString answers nothing, digits and dots, or a text that begins and ends with a digit. -/
theorem C80_shipped {H : Bytes → UInt64} {q : Req} (hl : q.ua.length < 2 ^ 32) {s : Bytes}
    (h : uncached Regexp.lib.tables H .engineVersionString q = some (.text s)) : s = [] ∨ DigitsAndDots s ∨ NumberLike s := by
  have hsafe : ChosenWF Regexp.lib.tables q.mc q.ua := by
    refine chosen_wf _ fun t v hc hv => ?_
    rw [C27_panics (H := H) _ hc hv (g := .engineVersionString) rfl] at h
    cases h
  obtain ⟨s', ha, hs⟩ := C56_engine_version (H := H) (shipped_wfbase Regexp.lib q.ua) hsafe hl
  rw [h] at ha
  cases ha
  rcases hs with ⟨v, e, -, -, ⟨-, i, re, -, h2, h3⟩ | ⟨-, rfl⟩⟩ | ⟨-, rfl⟩ | ⟨-, rfl⟩
  · right
    obtain ⟨c, hc, rfl⟩ := List.mem_map.mp (List.mem_of_getElem? h2)
    obtain ⟨rx, hp, hi⟩ := crEvre_inside c hc
    obtain ⟨x, lo, hi', g1, g2, g3, g4, rfl⟩ := captured (p := buf c) hp (Nat.le_refl 1) h3
    have hx := g1.mem
    rcases hi with hi | hi
    · rw [hi] at hx
      rw [List.mem_singleton.mp hx] at g2
      exact .inr (numberLike_of g3 g2)
    · rw [hi] at hx
      rw [List.mem_singleton.mp hx] at g2
      exact .inl (dotsDigits_of g3 g2)
  · exact .inl rfl
  · exact .inl rfl
  · exact .inl rfl

/-- An engine version by the shipped tables. -/
example : uncached Regexp.lib.tables (fun _ => 0) .engineVersionString { ua := ascii "AltiBrowser/1 WebKit/605.1", mc := ClientTypeBrowser } = some (.text (ascii "605.1")) := by
  decide +kernel

end Verif

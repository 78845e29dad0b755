import Verif.Proofs.RuleUnique
/-
From OS rows to OS rules.
-/
namespace Verif.Compiler

section
variable {env : Env} {lib : Bytes → Re} {u : Bytes} {r : Rules} {T : Tables} {os : St}
  (hre : T.orRe = os.re.map (fun p => lib (anyCase p))) (hbuf : T.orBuf = os.buf.buf)

theorem GroupGives.unique {repl : Bytes → Option Bytes} {rs x a b : Bytes} (h : GroupGives env lib u repl rs x a) (h' : GroupGives env lib u repl rs x b) :
    a = b := by
  obtain ⟨_, p, h1, h2⟩ := h
  obtain ⟨_, p', h1', h2'⟩ := h'
  rw [h1.unique h1'] at h2
  exact h2.unique h2'

include hre hbuf

theorem os_hits {t : OSRule} {w : OSTuple} (den : OSDen env os t w) : OSMatch T u w ↔ t.Hits env lib u := by
  unfold OSMatch OSRule.Hits
  rw [hre, hbuf]
  exact rowMatch_of den.m

theorem osVersion_hits {t : OSVersionRule} {w : OSVersionTuple} (den : OSVersionDen env os t w) : OSVersionMatch T u w ↔ t.Hits env lib u := by
  unfold OSVersionMatch OSVersionRule.Hits
  rw [hre, hbuf]
  exact rowMatch_of den.m

omit hbuf in
theorem os_skipped (hsrc : ∀ p, (lib p).src = p) {t : OSRule} {w : OSTuple} (den : OSDen env os t w) : OSSkipped T u w ↔ t.Skipped env u := by
  have ci : ∀ (p : Bytes) (s s' : String), ascii s' = ascii "(?i)" ++ ascii s → (anyCase p = ascii s' ↔ p = ascii s) := by
    intro p s s' e
    rw [e, anyCase, List.append_cancel_left_eq]
  constructor
  · rintro ⟨h0, re, h1, h2⟩
    obtain ⟨p, hp, hl⟩ := den.m.pat (lib := fun p => lib (anyCase p)) h0
    rw [hre, hl] at h1
    cases h1
    simp only [hsrc] at h2
    refine ⟨p, hp, ?_⟩
    rcases h2 with ⟨h2, h3⟩ | ⟨h2, h3⟩
    · refine .inl ⟨?_, h3⟩
      rcases h2 with h2 | h2
      · exact .inl ((ci _ _ _ (by decide +kernel)).mp h2)
      · exact .inr ((ci _ _ _ (by decide +kernel)).mp h2)
    · refine .inr ⟨?_, h3⟩
      rcases h2 with h2 | h2
      · exact .inl ((ci _ _ _ (by decide +kernel)).mp h2)
      · exact .inr ((ci _ _ _ (by decide +kernel)).mp h2)
  · rintro ⟨p, hp, h⟩
    have h0 : 0 ≤ w.matchRI := by
      rcases Int.lt_or_le w.matchRI 0 with h0 | h0
      · exact absurd hp (den.m.noPat h0 p)
      · exact h0
    obtain ⟨p', hp', hl⟩ := den.m.pat (lib := fun p => lib (anyCase p)) h0
    cases hp.unique hp'
    refine ⟨h0, lib (anyCase p), by rw [hre]; exact hl, ?_⟩
    simp only [hsrc]
    rcases h with ⟨h2, h3⟩ | ⟨h2, h3⟩
    · refine .inl ⟨?_, h3⟩
      rcases h2 with h2 | h2
      · exact .inl ((ci _ _ _ (by decide +kernel)).mpr h2)
      · exact .inr ((ci _ _ _ (by decide +kernel)).mpr h2)
    · refine .inr ⟨?_, h3⟩
      rcases h2 with h2 | h2
      · exact .inl ((ci _ _ _ (by decide +kernel)).mpr h2)
      · exact .inr ((ci _ _ _ (by decide +kernel)).mpr h2)

theorem os_chosen (hsrc : ∀ p, (lib p).src = p) (oden : All2 (OSDen env os) r.os T.orOs) {w : OSTuple} (h : OSChosen T u w) :
    ∃ t, OSRuleChosen env lib u r t ∧ OSDen env os t w ∧ t.Hits env lib u := by
  obtain ⟨t, h1, h2⟩ := oden.first (p := fun w => OSRule.Hits env lib u w ∧ ¬ OSRule.Skipped env u w)
    (fun a b _ d => by rw [os_hits hre hbuf d, os_skipped hre hsrc d]) h
  exact ⟨t, h1, h2, h1.mem.2.1⟩

theorem os_none (hsrc : ∀ p, (lib p).src = p) (oden : All2 (OSDen env os) r.os T.orOs) (h : OSNone T u) : OSRuleNone env lib u r := by
  have := oden.none (p := fun w => OSRule.Hits env lib u w ∧ ¬ OSRule.Skipped env u w) (p' := fun w => OSMatch T u w ∧ ¬ OSSkipped T u w)
    (fun a b _ d => by rw [os_hits hre hbuf d, os_skipped hre hsrc d]) (fun b hb hh => hh.2 (h b hb hh.1))
  intro w hw hh
  exact Classical.byContradiction fun hn => this w hw ⟨hh, hn⟩

theorem os_name {t : OSRule} {w : OSTuple} (den : OSDen env os t w) {raw : Bytes} (h : OSName T u w raw) : t.Name env lib u raw := by
  cases h with
  | @group re _ h0 h1 hr hc =>
    obtain ⟨p, hp, hl⟩ := den.m.pat (lib := fun p => lib (anyCase p)) h0
    rw [hre, hl] at hr
    cases hr
    cases den.name with
    | none _ hv => exact absurd hv h1
    | group x hx hv => rw [hv] at hc h1; exact .group hx ⟨h1, p, hp, hc⟩
    | const _ _ hv => exact absurd hv h1
  | const h0 ht =>
    rw [hbuf] at ht
    cases den.name with
    | none hn hv he =>
      rw [he] at ht
      rw [text_zero ht, ← hn]
      exact .const (by rw [hn]; simp)
    | group x hx hv he =>
      rw [he] at ht
      rw [text_zero ht]
      refine .absent hx ?_
      rintro raw ⟨k1, p, k2, k3⟩
      rcases h0 with h0 | h0 | ⟨re, h0, h0'⟩
      · exact den.m.noPat h0 p k2
      · rw [hv] at h0; exact k1 h0
      · rcases Int.lt_or_le w.matchRI 0 with hlt | hle
        · exact den.m.noPat hlt p k2
        · obtain ⟨p', hp, hl⟩ := den.m.pat (lib := fun p => lib (anyCase p)) hle
          cases k2.unique hp
          rw [hre, hl] at h0
          cases h0
          rw [hv] at h0'
          exact h0' _ k3
    | const k1 k2 k3 k4 kt =>
      rw [text_unique ht kt]
      exact .const k2

omit hbuf in
theorem os_own {t : OSRule} {w : OSTuple} (den : OSDen env os t w) (hv : t.versions = []) (h0 : w.version64 = 0) {raw : Bytes} (h : OSOwnVersion T u w raw) :
    TextGives env lib u env.replOS t.regex t.version raw := by
  obtain ⟨_, ix⟩ := den.ver hv
  cases h with
  | group h0 h1 hr hc =>
    obtain ⟨p, hp, hl⟩ := den.m.pat (lib := fun p => lib (anyCase p)) h0
    rw [hre, hl] at hr
    cases hr
    cases ix with
    | none _ hv => exact absurd hv h1
    | group x hx hv => rw [hv] at hc h1; exact .group hx ⟨h1, p, hp, hc⟩
    | const _ _ hv => exact absurd hv h1
  | none hn =>
    cases ix with
    | none hv => rw [hv]; exact .const (by simp)
    | group x hx hv =>
      refine .absent hx ?_
      rintro raw ⟨k1, p, k2, k3⟩
      rcases hn with h0 | h0 | ⟨re, h0, h0'⟩
      · exact den.m.noPat h0 p k2
      · rw [hv] at h0; exact k1 h0
      · rcases Int.lt_or_le w.matchRI 0 with hlt | hle
        · exact den.m.noPat hlt p k2
        · obtain ⟨p', hp, hl⟩ := den.m.pat (lib := fun p => lib (anyCase p)) hle
          cases k2.unique hp
          rw [hre, hl] at h0
          cases h0
          rw [hv] at h0'
          exact h0' _ k3
    | const _ _ _ he _ => exact absurd h0 he

omit hre hbuf in
theorem own_none {w : OSTuple} (h : w.versionSI = -1) {raw : Bytes} (ho : OSOwnVersion T u w raw) : raw = [] := by
  cases ho with
  | group _ h1 => exact absurd h h1
  | none => rfl

theorem os_version (hov : T.orOv = os.ov) {t : OSRule} {w : OSTuple} (den : OSDen env os t w) (hh : t.Hits env lib u) {raw : Bytes} (h : OSVersionText T u w raw) :
    t.VersionText env lib u raw := by
  by_cases hv : t.versions = []
  · obtain ⟨hv0, ix⟩ := den.ver hv
    cases h with
    | const h0 ht =>
      cases ix with
      | none _ _ he => exact absurd he h0
      | group _ _ _ he => exact absurd he h0
      | const _ k2 _ _ kt =>
        rw [hbuf] at ht
        rw [text_unique ht kt]
        exact .own hv (.const k2)
    | own h0 _ ho => exact .own hv (os_own hre den hv h0 ho)
    | rowGroup _ _ h2 => exact absurd hv0 h2
    | rowNoGroup _ _ h2 => exact absurd hv0 h2
    | rowConst _ _ h2 => exact absurd hv0 h2
    | noRow _ _ h2 => exact absurd hv0 h2
  · obtain ⟨hsi, hz, ws, hrange, hall⟩ := den.vers hv
    rw [← hov] at hrange
    have first : ∀ {rows : List OSVersionTuple} {x}, Rows T.orOv w.versions64 rows → First (OSVersionMatch T u) rows x →
        ∃ v, First (OSVersionRule.Hits env lib u) t.versions v ∧ OSVersionDen env os v x := by
      intro rows x h1 h2
      rw [hrange.eq_rows h1] at h2
      exact hall.first (fun a b _ d => osVersion_hits hre hbuf d) h2
    have spec : 0 ≤ w.matchRI → Special t.regex := fun h1 => by
      rcases den.m.hit (lib := fun p => lib (anyCase p)) hh with ⟨k, _⟩ | ⟨_, k, _⟩
      · omega
      · exact k
    cases h with
    | const h0 => exact absurd hz h0
    | rowGroup h0 h1 h2 hr hf h3 h4 hre' hc =>
      obtain ⟨v, hfv, vd⟩ := first hr hf
      refine .first (spec h1) hfv ?_
      obtain ⟨p, hp, hl⟩ := vd.m.pat (lib := fun p => lib (anyCase p)) h3
      rw [hre, hl] at hre'
      cases hre'
      cases vd.v with
      | none _ hv => exact absurd hv h4
      | group x hx hv => rw [hv] at hc h4; exact .group hx ⟨h4, p, hp, hc⟩
      | const _ _ hv => exact absurd hv h4
    | rowNoGroup h0 h1 h2 hr hf h3 h4 hre' hn ho =>
      obtain ⟨v, hfv, vd⟩ := first hr hf
      refine .first (spec h1) hfv ?_
      rw [own_none hsi ho]
      obtain ⟨p, hp, hl⟩ := vd.m.pat (lib := fun p => lib (anyCase p)) h3
      rw [hre, hl] at hre'
      cases hre'
      cases vd.v with
      | none _ hv => exact absurd hv h4
      | group x hx hv =>
        refine .absent hx ?_
        rintro raw ⟨k1, p', k2, k3⟩
        cases hp.unique k2
        rw [hv] at hn
        exact hn _ k3
      | const _ _ hv => exact absurd hv h4
    | rowConst h0 h1 h2 hr hf h3 ht =>
      obtain ⟨v, hfv, vd⟩ := first hr hf
      refine .first (spec h1) hfv ?_
      rw [hbuf] at ht
      cases vd.v with
      | none hn hv he =>
        rw [he] at ht
        rw [text_zero ht, hn]
        exact .const (by simp)
      | group x hx hv he =>
        rw [he] at ht
        rw [text_zero ht]
        refine .absent hx ?_
        rintro raw ⟨k1, p', k2, k3⟩
        rcases h3 with h3 | h3
        · exact vd.m.noPat h3 p' k2
        · rw [hv] at h3; exact k1 h3
      | const k1 k2 k3 k4 kt =>
        rw [text_unique ht kt]
        exact .const k2
    | noRow h0 h1 h2 hr hf ho =>
      rw [own_none hsi ho]
      rw [hrange.eq_rows hr] at hf
      exact .none hv (.inr (hall.none (fun a b _ d => osVersion_hits hre hbuf d) hf))
    | own h0 h1 ho =>
      rw [own_none hsi ho]
      refine .none hv (.inl ?_)
      rcases h1 with h1 | h1
      · rcases den.m.hit (lib := fun p => lib (anyCase p)) hh with ⟨_, k⟩ | ⟨k, _⟩
        · exact k
        · omega
      · refine absurd h1 (hrange.ne_zero ?_)
        intro hw
        have := hall.1
        rw [hw] at this
        exact hv (List.length_eq_zero_iff.mp this)

omit hre hbuf

/-! ### The answers are determined -/

theorem OSRule.Name.unique {t : OSRule} {a b : Bytes} (h : t.Name env lib u a) (h' : t.Name env lib u b) : a = b := by
  cases h with
  | const h => cases h' with | const => rfl | group k => exact absurd (by rw [k]; rfl) h | absent k => exact absurd (by rw [k]; rfl) h
  | group h hc =>
    cases h' with
    | const k => exact absurd (by rw [h]; rfl) k
    | group k kc => rw [h] at k; cases k; exact hc.unique kc
    | absent k kc => rw [h] at k; cases k; exact absurd hc (kc _)
  | absent h hc =>
    cases h' with
    | const k => exact absurd (by rw [h]; rfl) k
    | group k kc => rw [h] at k; cases k; exact absurd kc (hc _)
    | absent => rfl

theorem TextGives.unique {repl : Bytes → Option Bytes} {rs ver a b : Bytes} (h : TextGives env lib u repl rs ver a) (h' : TextGives env lib u repl rs ver b) :
    a = b := by
  cases h with
  | const h => cases h' with | const => rfl | group k => exact absurd (by rw [k]; rfl) h | absent k => exact absurd (by rw [k]; rfl) h
  | group h hc =>
    cases h' with
    | const k => exact absurd (by rw [h]; rfl) k
    | group k kc => rw [h] at k; cases k; exact hc.unique kc
    | absent k kc => rw [h] at k; cases k; exact absurd hc (kc _)
  | absent h hc =>
    cases h' with
    | const k => exact absurd (by rw [h]; rfl) k
    | group k kc => rw [h] at k; cases k; exact absurd kc (hc _)
    | absent => rfl

theorem OSRule.VersionText.unique {t : OSRule} {a b : Bytes} (h : t.VersionText env lib u a) (h' : t.VersionText env lib u b) : a = b := by
  cases h with
  | own h hg =>
    cases h' with
    | own k kg => exact hg.unique kg
    | first _ kf => rw [h] at kf; exact absurd kf.mem.1 (by simp)
    | none k => exact absurd h k
  | first hs hf hg =>
    cases h' with
    | own k => rw [k] at hf; exact absurd hf.mem.1 (by simp)
    | first _ kf kg => rw [hf.unique kf] at hg; exact hg.unique kg
    | none k kf =>
      rcases kf with kf | kf
      · exact absurd hs kf
      · exact (hf.not_none kf).elim
  | none h hf =>
    cases h' with
    | own k => exact absurd k h
    | first ks kf =>
      rcases hf with hf | hf
      · exact absurd ks hf
      · exact (kf.not_none hf).elim
    | none => rfl

theorem OSRuleChosen.not_none {t : OSRule} (h : OSRuleChosen env lib u r t) : ¬ OSRuleNone env lib u r := fun hn => h.mem.2.2 (hn t h.mem.1 h.mem.2.1)

theorem OSVersionSays.unique {a b : Bytes} (h : OSVersionSays env lib u r a) (h' : OSVersionSays env lib u r b) : a = b := by
  rcases h with ⟨t, raw, h, hv, rfl⟩ | ⟨h, rfl⟩ <;> rcases h' with ⟨t', raw', h', hv', rfl⟩ | ⟨h', rfl⟩
  · cases First.unique h h'
    rw [hv.unique hv']
  · exact absurd h' h.not_none
  · exact absurd h h'.not_none
  · rfl

theorem trimmed_nil {s : Bytes} (h : Trimmed [] s) : s = [] := by
  obtain ⟨a, z, e, _⟩ := h
  have := congrArg List.length e
  simp at this
  exact List.length_eq_zero_iff.mp (by omega)

/-- Two answers to GetOS differ only if both are empty or "UNK". -/
theorem OSSays.unique {a b : Bytes} (h : OSSays env lib u r a) (h' : OSSays env lib u r b) :
    a = b ∨ ((a = [] ∨ a = ascii "UNK") ∧ (b = [] ∨ b = ascii "UNK")) := by
  rcases h with ⟨t, raw, h, hv, hs⟩ | ⟨h, rfl⟩ <;> rcases h' with ⟨t', raw', h', hv', hs'⟩ | ⟨h', rfl⟩
  · cases First.unique h h'
    cases hv.unique hv'
    rcases hs with hs | ⟨hz, rfl⟩ <;> rcases hs' with hs' | ⟨hz', rfl⟩
    · exact .inl (hs.unique hs')
    · rw [hz'] at hs; exact .inr ⟨.inl (trimmed_nil hs), .inr rfl⟩
    · rw [hz] at hs'; exact .inr ⟨.inr rfl, .inl (trimmed_nil hs')⟩
    · exact .inl rfl
  · exact absurd h' h.not_none
  · exact absurd h h'.not_none
  · exact .inl rfl

end
end Verif.Compiler

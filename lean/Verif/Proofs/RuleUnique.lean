import Verif.Proofs.RuleFiles
/-
What rule files say is unambiguous.
-/
namespace Verif

theorem dots_unique {s s' : Bytes} {n n' : Nat} (h : s ++ List.replicate n (46 : UInt8) = s' ++ List.replicate n' 46)
    (hs : s.getLast? ≠ some 46) (hs' : s'.getLast? ≠ some 46) : s = s' := by
  have key : ∀ {s s' : Bytes} {n n' : Nat}, s ++ List.replicate n (46 : UInt8) = s' ++ List.replicate n' 46 → s'.getLast? ≠ some 46 →
      s.length ≤ s'.length → s = s' := by
    intro s s' n n' h hs' hl
    rw [List.append_eq_append_iff] at h
    rcases h with ⟨a, h1, h2⟩ | ⟨a, h1, h2⟩
    · rcases List.eq_nil_or_concat a with rfl | ⟨a', x, rfl⟩
      · simpa using h1.symm
      · exfalso
        have : x ∈ List.replicate n (46 : UInt8) := by rw [h2]; simp
        have hx := List.eq_of_mem_replicate this
        apply hs'
        rw [h1, hx]
        simp
    · have : a = [] := by
        have := congrArg List.length h1
        simp at this
        exact List.length_eq_zero_iff.mp (by omega)
      rw [h1, this]; simp
  rcases Nat.le_total s.length s'.length with hl | hl
  · exact key h hs' hl
  · exact (key h.symm hs hl).symm

theorem Cleaned.unique {raw s s' : Bytes} (h : Cleaned raw s) (h' : Cleaned raw s') : s = s' := by
  obtain ⟨r, n, h1, h2, h3⟩ := h
  obtain ⟨r', n', h1', h2', h3'⟩ := h'
  have hr : r = r' := by
    rcases h1 with ⟨h1, rfl⟩ | ⟨p, hp, rfl⟩
    · rcases h1' with ⟨_, rfl⟩ | ⟨p, _, rfl⟩
      · rfl
      · exact absurd (by simp) h1
    · rcases h1' with ⟨h1', rfl⟩ | ⟨p', hp', e⟩
      · exact absurd (by simp) h1'
      · rw [List.append_eq_append_iff] at e
        obtain ⟨b, rfl, e⟩ | ⟨b, rfl, e⟩ := e
        · cases b with
          | nil => simpa using e
          | cons x b => simp only [List.cons_append, List.cons.injEq] at e; exact absurd (by simp [← e.1]) hp'
        · cases b with
          | nil => simpa using e.symm
          | cons x b => simp only [List.cons_append, List.cons.injEq] at e; exact absurd (by simp [← e.1]) hp
  subst hr
  rw [h2] at h2'
  exact dots_unique h2' h3 h3'

namespace Compiler

section
variable {env : Env} {lib : Bytes → Re} {u : Bytes} {r : Rules}

/-! ### Clients -/

theorem ClientRuleChosen.first {m ty : ClientType} {t : ClientRule} (h : ClientRuleChosen env lib u r m ty t) :
    ∃ i f, First (fun x : ClientType × Nat => m &&& x.1 ≠ 0 ∧ ¬ NoClientRule env lib u r x.2) clientOrder (ty, i) ∧
      r.client[i]? = some f ∧ First (ClientRule.Hits env lib u) f t := by
  obtain ⟨a, z, i, f, h1, h2, h3, h4, h5⟩ := h
  refine ⟨i, f, ⟨a, z, h1, ⟨h2, ?_⟩, fun y hy ⟨k1, k2⟩ => k2 (h3 y hy k1)⟩, h4, h5⟩
  rintro ⟨f', k1, k2⟩
  rw [h4] at k1; cases k1
  exact h5.not_none k2

theorem ClientRuleChosen.unique {m ty ty' : ClientType} {t t' : ClientRule} (h : ClientRuleChosen env lib u r m ty t)
    (h' : ClientRuleChosen env lib u r m ty' t') : ty = ty' ∧ t = t' := by
  obtain ⟨i, f, h1, h2, h3⟩ := h.first
  obtain ⟨i', f', h1', h2', h3'⟩ := h'.first
  cases h1.unique h1'
  rw [h2] at h2'; cases h2'
  exact ⟨rfl, h3.unique h3'⟩

theorem ClientRuleChosen.not_none {m ty : ClientType} {t : ClientRule} (h : ClientRuleChosen env lib u r m ty t) : ¬ ClientRuleNone env lib u r m := by
  intro hn
  obtain ⟨i, f, h1, -, -⟩ := h.first
  exact h1.mem.2.2 (hn _ h1.mem.1 h1.mem.2.1)

theorem ClientRuleChosen.mem {m ty : ClientType} {t : ClientRule} (h : ClientRuleChosen env lib u r m ty t) : ∃ f ∈ r.client, t ∈ f := by
  obtain ⟨i, f, -, h1, h2⟩ := h.first
  exact ⟨f, List.mem_of_getElem? h1, h2.mem.1⟩

theorem special_of_pattern {repl : Bytes → Option Bytes} {rs p : Bytes} (h : patternOf env repl rs p) : Special rs := h.1

theorem ClientRule.Version.unique {t : ClientRule} {a b : Bytes} (h : t.Version env lib u a) (h' : t.Version env lib u b) : a = b := by
  cases h with
  | literal h =>
    cases h' with
    | literal => rfl
    | const hs => exact absurd hs h
    | group _ _ hp => exact absurd hp.1 h
    | absent => rfl
    | none => rfl
  | const hs hn hd =>
    cases h' with
    | literal h => exact absurd hs h
    | const => rfl
    | group h => exact absurd (by rw [h]; rfl) hd
    | absent h => exact absurd (by rw [h]; rfl) hd
    | none _ h =>
      rcases h with h | ⟨x, h, _⟩
      · exact absurd h hn
      · exact absurd (by rw [h]; rfl) hd
  | group h hi hp hc =>
    cases h' with
    | literal hl => exact absurd hp.1 hl
    | const _ _ hd => exact absurd (by rw [h]; rfl) hd
    | group k _ kp kc =>
      rw [h] at k; cases k
      rw [hp.unique kp] at hc
      exact hc.unique kc
    | absent k _ kp kc =>
      rw [h] at k; cases k
      rw [hp.unique kp] at hc
      exact absurd hc (kc _)
    | none _ k =>
      rcases k with k | ⟨x, k, k'⟩
      · rw [h] at k; cases k
      · rw [h] at k; cases k; exact absurd k' hi
  | absent h hi hp hc =>
    cases h' with
    | literal => rfl
    | const _ _ hd => exact absurd (by rw [h]; rfl) hd
    | group k _ kp kc =>
      rw [h] at k; cases k
      rw [hp.unique kp] at hc
      exact absurd kc (hc _)
    | absent => rfl
    | none => rfl
  | none hs h =>
    cases h' with
    | literal => rfl
    | const _ hn hd =>
      rcases h with h | ⟨x, h, _⟩
      · exact absurd h hn
      · exact absurd (by rw [h]; rfl) hd
    | group k ki =>
      rcases h with h | ⟨x, h, hx⟩
      · rw [h] at k; cases k
      · rw [h] at k; cases k; exact absurd hx ki
    | absent => rfl
    | none => rfl

theorem ClientRule.Engine.unique {t : ClientRule} (hth : ∀ en, t.engine = some en → (en.versions.map (·.1)).Nodup ∧ ∀ v ∈ en.versions, v.2 ≠ [])
    {a b : Bytes} (h : t.Engine env lib u a) (h' : t.Engine env lib u b) : a = b := by
  have least : ∀ {en v w}, t.engine = some en → v ∈ en.versions → (∀ x ∈ en.versions, strGe x.1 v.1 = true) → w ∈ en.versions →
      (∀ x ∈ en.versions, strGe x.1 w.1 = true) → v = w := by
    intro en v w he hv hvm hw hwm
    exact nodup_inj (hth en he).1 hv hw (strGe_anti (hwm v hv) (hvm w hw))
  cases h with
  | none h => cases h' with | none => rfl | const k => rw [h] at k; cases k | above k => rw [h] at k; cases k | below k => rw [h] at k; cases k
  | const h hv =>
    cases h' with
    | none k => rw [h] at k; cases k
    | const k => rw [h] at k; cases k; rfl
    | above k _ _ kv => rw [h] at k; cases k; rw [hv] at kv; cases kv
    | below k _ _ kv => rw [h] at k; cases k; rfl
  | above h hr hm hv hmin hge =>
    cases h' with
    | none k => rw [h] at k; cases k
    | const k kv => rw [h] at k; cases k; rw [kv] at hv; cases hv
    | above k _ _ kv kmin => rw [h] at k; cases k; rw [least h hv hmin kv kmin]
    | below k kr km kv kmin klt =>
      rw [h] at k; cases k
      cases least h hv hmin kv kmin
      cases hr.unique kr
      rw [hm.unique km, klt] at hge; contradiction
  | below h hr hm hv hmin hlt =>
    cases h' with
    | none k => rw [h] at k; cases k
    | const k kv => rw [h] at k; cases k; rfl
    | above k kr km kv kmin kge =>
      rw [h] at k; cases k
      cases least h hv hmin kv kmin
      cases hr.unique kr
      rw [hm.unique km, kge] at hlt; contradiction
    | below k => rw [h] at k; cases k; rfl

theorem BrowserEngine.unique {t : ClientRule} (hth : ∀ en, t.engine = some en → (en.versions.map (·.1)).Nodup ∧ ∀ v ∈ en.versions, v.2 ≠ [])
    {a b : Bytes} (h : BrowserEngine env lib u r t a) (h' : BrowserEngine env lib u r t b) : a = b := by
  cases h with
  | own h hn =>
    cases h' with
    | own k => exact h.unique hth k
    | first k => exact absurd (h.unique hth k) hn
    | none k => exact absurd (h.unique hth k) hn
  | first h hf hw =>
    cases h' with
    | own k kn => exact absurd (k.unique hth h) kn
    | first k kf kw => rw [hf] at kf; cases kf; rw [hw.unique kw]
    | none k kw =>
      obtain ⟨f', k1, k2⟩ := kw
      rw [hf] at k1; cases k1
      exact (hw.not_none k2).elim
  | none h hw =>
    cases h' with
    | own k kn => exact absurd (k.unique hth h) kn
    | first k kf kw =>
      obtain ⟨f', k1, k2⟩ := hw
      rw [kf] at k1; cases k1
      exact (kw.not_none k2).elim
    | none => rfl

theorem Captures.isMatch {re : Re} {i : Nat} {t : Bytes} (h : Captures re u i t) : re.isMatch u = true := by
  obtain ⟨m, a, z, h1, _⟩ := h
  simp [Re.isMatch, h1]

theorem EngineVersionSays.unique {n a b : Bytes} (h : EngineVersionSays lib u r n a) (h' : EngineVersionSays lib u r n b) : a = b := by
  cases h with
  | group h hc =>
    cases h' with
    | group _ kc => exact hc.unique kc
    | noMatch _ km => rw [Captures.isMatch hc] at km; cases km
    | unknown k => exact absurd h k
  | noMatch h hm =>
    cases h' with
    | group _ kc => rw [Captures.isMatch kc] at hm; cases hm
    | noMatch => rfl
    | unknown => rfl
  | unknown h =>
    cases h' with
    | group k => exact absurd k h
    | noMatch => rfl
    | unknown => rfl

/-! ### Answers about clients -/

theorem ClientTypeSays.unique {m a b : ClientType} (h : ClientTypeSays env lib u r m a) (h' : ClientTypeSays env lib u r m b) : a = b := by
  rcases h with ⟨t, h⟩ | ⟨h, rfl⟩ <;> rcases h' with ⟨t', h'⟩ | ⟨h', rfl⟩
  · exact (h.unique h').1
  · exact absurd h' h.not_none
  · exact absurd h h'.not_none
  · rfl

theorem BrowserSays.unique {m : ClientType} {a b : Bytes} (h : BrowserSays env lib u r m a) (h' : BrowserSays env lib u r m b) : a = b := by
  rcases h with ⟨ty, t, h, rfl⟩ | ⟨h, rfl⟩ <;> rcases h' with ⟨ty', t', h', rfl⟩ | ⟨h', rfl⟩
  · rw [(h.unique h').2]
  · exact absurd h' h.not_none
  · exact absurd h h'.not_none
  · rfl

theorem BrowserVersionSays.unique {m : ClientType} {a b : Bytes} (h : BrowserVersionSays env lib u r m a) (h' : BrowserVersionSays env lib u r m b) :
    a = b := by
  rcases h with ⟨ty, t, raw, h, hv, hc⟩ | ⟨h, rfl⟩ <;> rcases h' with ⟨ty', t', raw', h', hv', hc'⟩ | ⟨h', rfl⟩
  · obtain ⟨_, rfl⟩ := h.unique h'
    rw [hv.unique hv'] at hc
    exact hc.unique hc'
  · exact absurd h' h.not_none
  · exact absurd h h'.not_none
  · rfl

theorem EngineSays.unique (hth : ThresholdsOK r) {blink : Re} {m : ClientType} {a b : Bytes} (h : EngineSays env lib u blink r m a)
    (h' : EngineSays env lib u blink r m b) : a = b := by
  rcases h with ⟨t, n, h, he, rfl⟩ | ⟨⟨ty, t, h, hn⟩, rfl⟩ | ⟨h, rfl⟩ <;>
    rcases h' with ⟨t', n', h', he', rfl⟩ | ⟨⟨ty', t', h', hn'⟩, rfl⟩ | ⟨h', rfl⟩
  · obtain ⟨_, rfl⟩ := h.unique h'
    obtain ⟨f, hf, ht⟩ := h.mem
    rw [he.unique (hth f hf t ht) he']
  · exact absurd (h.unique h').1.symm hn'
  · exact absurd h' h.not_none
  · exact absurd (h.unique h').1 hn
  · rfl
  · rfl
  · exact absurd h h'.not_none
  · rfl
  · rfl

theorem EngineVersionStringSays.unique (hth : ThresholdsOK r) {m : ClientType} {a b : Bytes} (h : EngineVersionStringSays env lib u r m a)
    (h' : EngineVersionStringSays env lib u r m b) : a = b := by
  rcases h with ⟨t, n, h, he, hs⟩ | ⟨⟨ty, t, h, hn⟩, rfl⟩ | ⟨h, rfl⟩ <;>
    rcases h' with ⟨t', n', h', he', hs'⟩ | ⟨⟨ty', t', h', hn'⟩, rfl⟩ | ⟨h', rfl⟩
  · obtain ⟨_, rfl⟩ := h.unique h'
    obtain ⟨f, hf, ht⟩ := h.mem
    rw [he.unique (hth f hf t ht) he'] at hs
    exact hs.unique hs'
  · exact absurd (h.unique h').1.symm hn'
  · exact absurd h' h.not_none
  · exact absurd (h.unique h').1 hn
  · rfl
  · rfl
  · exact absurd h h'.not_none
  · rfl
  · rfl

end
end Compiler
end Verif

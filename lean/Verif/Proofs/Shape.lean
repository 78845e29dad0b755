import Verif.Proofs.Totality
/-
The texts behind the packed offsets: version and name texts in terms of regexp groups and constants.
-/
namespace Verif

variable {T : Tables} {u : Bytes}

theorem Text.unique {buf : Bytes} {e : Entry64} {t t' : Bytes} (h : Text buf e t) (h' : Text buf e t') : t = t' := by
  rw [← sliceE_iff] at h h'
  rw [h] at h'; cases h'; rfl

theorem text_zero {buf t : Bytes} (h : Text buf 0 t) : t = [] := by
  obtain ⟨a, z, -, h1, h2⟩ := h
  have h1 : 0 = a.length := h1
  have h2 : 0 = a.length + t.length := h2
  exact List.length_eq_zero_iff.mp (by omega)

theorem text_zero' (buf : Bytes) : Text buf 0 [] := ⟨[], buf, by simp, by simp, by simp⟩

theorem dropWhile_spec (x : UInt8) (b : Bytes) :
    ∃ n, b = List.replicate n x ++ b.dropWhile (· == x) ∧ (b.dropWhile (· == x)).head? ≠ some x := by
  induction b with
  | nil => exact ⟨0, by simp⟩
  | cons y b ih =>
    by_cases h : y = x
    · subst h
      obtain ⟨n, h1, h2⟩ := ih
      refine ⟨n + 1, ?_, by simpa using h2⟩
      simp only [List.dropWhile_cons, beq_self_eq_true, if_true, List.replicate_succ, List.cons_append]
      rw [← h1]
    · exact ⟨0, by simp [h], by simp [h]⟩

theorem trimRight_spec (x : UInt8) (b : Bytes) : ∃ n, b = trimRight x b ++ List.replicate n x ∧ (trimRight x b).getLast? ≠ some x := by
  obtain ⟨n, h1, h2⟩ := dropWhile_spec x b.reverse
  refine ⟨n, ?_, ?_⟩
  · have := congrArg List.reverse h1
    simpa [trimRight] using this
  · simpa [trimRight] using h2

theorem trim_spec (b : Bytes) : Trimmed b (trim 32 b) := by
  obtain ⟨n, h1, h2⟩ := dropWhile_spec 32 b
  obtain ⟨k, h3, h4⟩ := trimRight_spec 32 (b.dropWhile (· == 32))
  refine ⟨n, k, ?_, ?_, h4⟩
  · unfold trim
    rw [List.append_assoc, ← h3]; exact h1
  · unfold trim
    rw [h3] at h2
    intro h
    apply h2
    cases hh : trimRight 32 (b.dropWhile (· == 32)) with
    | nil => rw [hh] at h; simp at h
    | cons y r => rw [hh] at h; simpa using h

theorem Trimmed.unique {raw s s' : Bytes} (h : Trimmed raw s) (h' : Trimmed raw s') : s = s' := by
  have key : ∀ s, Trimmed raw s → s = trim 32 raw := by
    rintro s ⟨a, z, rfl, h1, h2⟩
    unfold trim
    have e1 : ∀ (l : Bytes), l.head? ≠ some 32 → l.dropWhile (· == 32) = l := by
      intro l hl
      cases l with
      | nil => rfl
      | cons y l => simp at hl; simp [hl]
    have e2 : ∀ (n : Nat) (l : Bytes), (List.replicate n (32 : UInt8) ++ l).dropWhile (· == 32) = l.dropWhile (· == 32) := by
      intro n l
      induction n with
      | zero => simp
      | succ n ih => simp only [List.replicate_succ, List.cons_append, List.dropWhile_cons, beq_self_eq_true, if_true, ih]
    rw [List.append_assoc, e2]
    by_cases hs : s = []
    · subst hs
      have := e2 z []
      simp only [List.append_nil] at this
      simp [this, trimRight]
    · have h3 : (s ++ List.replicate z (32 : UInt8)).head? ≠ some 32 := by
        cases s with
        | nil => exact absurd rfl hs
        | cons y r => simpa using h1
      rw [e1 _ h3]
      unfold trimRight
      simp only [List.reverse_append, List.reverse_replicate]
      rw [e2, e1 _ (by simpa using h2)]
      simp
  rw [key s h, key s' h']

theorem cleaned_spec (raw : Bytes) : Cleaned raw (trimRight 46 (match indexByteAt raw 47 0 with | some p => raw.drop (p + 1) | none => raw)) := by
  unfold indexByteAt
  cases h : indexByte raw 47 with
  | none =>
    obtain ⟨n, h1, h2⟩ := trimRight_spec 46 raw
    simp only [List.drop_zero, h, Option.map_none]
    exact ⟨raw, n, .inl ⟨fun hm => indexByte_none' h 47 hm rfl, rfl⟩, h1, h2⟩
  | some p =>
    obtain ⟨z, e1, -, e3, -, e5⟩ := indexByte_some h
    obtain ⟨n, h1, h2⟩ := trimRight_spec 46 (raw.drop (p + 1))
    simp only [List.drop_zero, h, Option.map_some, Nat.add_zero]
    refine ⟨raw.drop (p + 1), n, .inr ⟨raw.take p, fun hm => e3 47 hm rfl, ?_⟩, h1, h2⟩
    rw [e5]; exact e1

theorem cleaned_nil : Cleaned [] [] := ⟨[], 0, .inl ⟨by simp, rfl⟩, by simp, by simp⟩

theorem cleaned_nil' {s : Bytes} (h : Cleaned [] s) : s = [] := by
  obtain ⟨r, n, ⟨-, rfl⟩ | ⟨p, -, h1⟩, h2, -⟩ := h
  · have := congrArg List.length h2
    simp at this
    exact List.length_eq_zero_iff.mp (by omega)
  · simp at h1

/-! ### Client version -/

/-- The offsets of the client version denote the version text of the rule. -/
theorem clientVer_text (hw : WFbase T u) (hl : u.length < 2 ^ 32) {v : ClientTuple} (hv : ClientRowWF T v) (hgv : ClientGroupWF T v) (hm : ClientMatch T u v) :
    ∃ raw, ClientVersion T u v raw ∧ Text (if (clientVer T u v).2 then T.crBuf else u) (clientVer T u v).1 raw := by
  have key : ∀ p, clientVer T u v = p → (∃ raw, ClientVersion T u v raw ∧ Text (if p.2 then T.crBuf else u) p.1 raw) →
      ∃ raw, ClientVersion T u v raw ∧ Text (if (clientVer T u v).2 then T.crBuf else u) (clientVer T u v).1 raw := by
    rintro p rfl h; exact h
  by_cases hri : v.matchRI ≥ 0
  · obtain ⟨re, h1⟩ := hv.re hri
    have hmm := row_re hm hri h1
    have hre := hw.crRe re (List.mem_of_getElem? h1)
    have e0 : clientVer T u v = verOf re u v := by unfold clientVer; rw [if_pos hri, index_eq _ hri, h1]
    unfold verOf at e0
    by_cases h64 : v.version64 ≠ 0
    · rw [if_pos h64] at e0
      obtain ⟨t, ht⟩ := hv.ver
      exact key _ e0 ⟨t, .const hri h64 ht, ht⟩
    · rw [if_neg h64] at e0
      have h64 : v.version64 = 0 := by simpa using h64
      by_cases hne : v.browserVI ≠ -1
      · have hg := hgv hri h64 re h1
        have hlen : ((re.submatch u).length : Int) > v.browserVI.toInt := by
          obtain h | ⟨h0, h3, -⟩ := hg
          · exact absurd h hne
          · obtain ⟨m, -, h4, h5, -⟩ := group_index hre hmm (Nat.le_refl re.ncap)
            rw [h5, h4]; omega
        rw [if_pos ⟨hne, hlen⟩] at e0
        refine key _ e0 ?_
        obtain ⟨h3, h4⟩ | ⟨t, h3, h4⟩ := groupE_text hg hne hre hmm hl
        · rw [h3]
          exact ⟨[], .absent hri h64 hne h1 fun t ht => h4 ⟨t, ht⟩, text_zero' _⟩
        · exact ⟨t, .group hri h64 hne h1 h3, h4⟩
      · rw [if_neg fun h => hne h.1] at e0
        exact key _ e0 ⟨[], .noGroup hri h64 (by simpa using hne), text_zero' _⟩
  · exact key (0, false) (by unfold clientVer; rw [if_neg hri]) ⟨[], .literal (by omega), text_zero' _⟩

theorem Captures.unique {re : Re} {i : Nat} {t t' : Bytes} (h : Captures re u i t) (h' : Captures re u i t') : t = t' := by
  obtain ⟨m, a, z, h1, h2, h3, h4⟩ := h
  obtain ⟨m', a', z', h1', h2', h3', h4'⟩ := h'
  rw [h1] at h1'; cases h1'
  rw [h3] at h3'; injection h3' with h3'
  rw [h4] at h4'; injection h4' with h4'
  have e1 : slice? u a.length (a.length + t.length) = some t := slice_iff.mpr ⟨a, z, h2, rfl, rfl⟩
  have e2 : slice? u a'.length (a'.length + t'.length) = some t' := slice_iff.mpr ⟨a', z', h2', rfl, rfl⟩
  rw [show a'.length = a.length by omega, show a.length + t'.length = a.length + t.length by omega, e1] at e2
  cases e2; rfl

theorem ClientVersion.unique {v : ClientTuple} {r r' : Bytes} (h : ClientVersion T u v r) (h' : ClientVersion T u v r') : r = r' := by
  cases h with
  | const h0 h1 h2 =>
    cases h' with
    | const _ _ h2' => exact h2.unique h2'
    | literal h => omega
    | _ => contradiction
  | group h0 h1 h2 h3 h4 =>
    cases h' with
    | group _ _ _ h3' h4' => rw [h3] at h3'; cases h3'; exact h4.unique h4'
    | absent _ _ _ h3' h4' => rw [h3] at h3'; cases h3'; exact absurd h4 (h4' _)
    | literal h => omega
    | _ => contradiction
  | absent h0 h1 h2 h3 h4 =>
    cases h' with
    | group _ _ _ h3' h4' => rw [h3] at h3'; cases h3'; exact absurd h4' (h4 _)
    | absent _ _ _ h3' h4' => rfl
    | literal h => omega
    | _ => contradiction
  | noGroup h0 h1 h2 =>
    cases h' with
    | noGroup => rfl
    | literal h => omega
    | _ => contradiction
  | literal h0 =>
    cases h' with
    | literal => rfl
    | _ => omega

theorem getMajor_spec (raw : Bytes) : MajorOf raw (getMajor raw) := by
  unfold getMajor
  cases h : indexByte raw 46 with
  | none => exact .inr ⟨fun hm => indexByte_none' h 46 hm rfl, rfl⟩
  | some p =>
    obtain ⟨z, e1, -, e3, -, -⟩ := indexByte_some h
    exact .inl ⟨z, e1, fun hm => e3 46 hm rfl⟩

theorem ruleEngine_of (hw : WFbase T u) (hl : u.length < 2 ^ 32) {v : ClientTuple} (hv : ClientRowWF T v) (hgv : ClientGroupWF T v) (hm : ClientMatch T u v)
    {cv e : Entry64} (hcv : (clientVer T u v).1 = cv) (h : EngRule T u v cv e) : RuleEngine T u v e := by
  unfold EngRule at h
  split at h
  · rename_i hne
    obtain ⟨raw, f, h1, h2, h3, rfl⟩ := h
    obtain ⟨raw', k1, k2⟩ := clientVer_text hw hl hv hgv hm
    have h64 := (hv.fn hne).2.2
    have hc : (clientVer T u v).2 = false := by
      unfold clientVer
      split
      · cases index? T.crRe v.matchRI with
        | none => rfl
        | some re => dsimp only [verOf]; rw [if_neg (by simpa using h64)]; split <;> rfl
      · rfl
    rw [hc, hcv] at k2
    have k2 : Text u cv raw' := k2
    cases h1.unique k2
    exact .fn hne k1 (getMajor_spec raw) h3
  · rename_i hne
    rw [h]
    exact .const (by simpa using hne)

theorem engineOf_of (hw : WFbase T u) (hl : u.length < 2 ^ 32) {v : ClientTuple} (hv : ClientRowWF T v) (hgv : ClientGroupWF T v) (hm : ClientMatch T u v)
    {cv e1 e : Entry64} (hcv : (clientVer T u v).1 = cv) (h1 : EngRule T u v cv e1) (h2 : EngList T u e1 e) : EngineOf T u v e := by
  have hr := ruleEngine_of hw hl hv hgv hm hcv h1
  unfold EngList at h2
  split at h2
  · rename_i h0
    subst h0
    obtain ⟨rows, r, h3, h4, rfl⟩ := h2
    cases r with
    | none => exact .none hr h3 h4
    | some w => exact .first hr h3 h4
  · rename_i h0
    subst h2
    exact .own hr h0

theorem engVer_text (hw : WFbase T u) (hl : u.length < 2 ^ 32) (e : Entry64) :
    ∃ s, EngineVersionText T u e s ∧ Text u (engVer T u e) s := by
  unfold engVer
  split
  · exact ⟨[], .inr ⟨.inl ‹_›, rfl⟩, text_zero' _⟩
  · rename_i h0
    split
    · rename_i ri hri
      obtain ⟨re, h1, h2⟩ := hw.crEv _ _ hri
      rw [h1]
      dsimp only
      cases hf : re.find u with
      | none =>
        have hs : re.submatch u = [] := by simp [Re.submatch, hf]
        rw [hs]
        refine ⟨[], .inr ⟨.inr (.inr ⟨ri, re, hri, h1, by simp [Re.isMatch, hf]⟩), rfl⟩, ?_⟩
        exact text_zero' _
      | some m =>
        have hs : re.submatch u = m := by simp [Re.submatch, hf]
        rw [hs]
        obtain ⟨lo', h3, h4⟩ := h2.2 u m hf
        obtain ⟨-, h5⟩ := hw.crEvre re (List.mem_of_getElem? h1) u m hf
        obtain ⟨k1, k2⟩ | ⟨a, t, z, k0, k1, k2⟩ := groupOK_split (h5 1 h2.1)
        · rw [h4] at k1; injection k1; omega
        · have e1 : index? m 2 = some (a.length : Int) := k1
          have e2 : index? m 3 = some ((a.length + t.length : Nat) : Int) := k2
          rw [e1, e2]
          exact ⟨t, .inl ⟨h0, ri, re, hri, h1, m, a, z, hf, k0, k1, k2⟩, text_encode k0 hl⟩
    · exact ⟨[], .inr ⟨.inr (.inl ‹_›), rfl⟩, text_zero' _⟩

/-! ### OS texts -/

theorem osOwn_text (hw : WFdev T u) (hl : u.length < 2 ^ 32) {x : OSTuple} (hx : OSRowWF T u x) (hm : OSMatch T u x) :
    (∃ raw, OSName T u x raw ∧ Text (if (osOwn T u x).1.2 then u else T.orBuf) (osOwn T u x).1.1 raw) ∧
    (∃ raw, OSOwnVersion T u x raw ∧ Text u (osOwn T u x).2 raw) := by
  unfold osOwn
  split
  · rename_i hri
    obtain ⟨re, h1, h2⟩ := hx.re hri
    have hmm := row_re hm hri h1
    obtain ⟨g1, g2⟩ := h2 hmm
    have hre := hw.orRe re (List.mem_of_getElem? h1)
    rw [index_eq _ hri, h1]
    dsimp only
    constructor
    · unfold osName
      obtain ⟨h, hn⟩ | ⟨e, t, hne, h, hc, ht⟩ := groupO_text g1 hre hmm hl
      · simp only [h]
        obtain ⟨raw, hr⟩ := hx.name
        refine ⟨raw, .const ?_ hr, hr⟩
        by_cases hne : x.nameSI = -1
        · exact .inr (.inl hne)
        · exact .inr (.inr ⟨re, h1, fun t ht => hn hne ⟨t, ht⟩⟩)
      · simp only [h]; exact ⟨t, .group hri hne h1 hc, ht⟩
    · obtain ⟨h, hn⟩ | ⟨e, t, hne, h, hc, ht⟩ := groupO_text g2 hre hmm hl
      · simp only [h]
        refine ⟨[], .none ?_, text_zero' _⟩
        by_cases hne : x.versionSI = -1
        · exact .inr (.inl hne)
        · exact .inr (.inr ⟨re, h1, fun t ht => hn hne ⟨t, ht⟩⟩)
      · simp only [h]; exact ⟨t, .group hri hne h1 hc, ht⟩
  · rename_i hri
    obtain ⟨raw, hr⟩ := hx.name
    exact ⟨⟨raw, .const (.inl (by omega)) hr, hr⟩, [], .none (.inl (by omega)), text_zero' _⟩

theorem osVer_text (hw : WFdev T u) (hl : u.length < 2 ^ 32) {x : OSTuple} (hx : OSRowWF T u x) {old : Entry64} {raw0 : Bytes}
    (ho : OSOwnVersion T u x raw0) (hot : Text u old raw0) {p : Entry64 × Bool} (h : OSVer T u x old p) :
    ∃ raw, OSVersionText T u x raw ∧ Text (if p.2 then T.orBuf else u) p.1 raw := by
  unfold OSVer at h
  split at h
  · rename_i h0
    rw [h]
    obtain ⟨raw, hr⟩ := hx.ver
    exact ⟨raw, .const h0 hr, hr⟩
  · rename_i h0
    have h0 : x.version64 = 0 := by simpa using h0
    split at h
    · rename_i hc
      obtain ⟨rows, r, h1, h2, rfl⟩ := h
      cases r with
      | none => exact ⟨raw0, .noRow h0 hc.1 hc.2 h1 h2 ho, hot⟩
      | some w =>
        have h2 : First (OSVersionMatch T u) rows w := h2
        have hmem : w ∈ T.orOv := by
          obtain ⟨a, z, e, -⟩ := h1
          rw [e]; simp [h2.mem.1]
        have hwr := hw.orOv w hmem
        dsimp only
        unfold verRow
        split
        · rename_i hri
          obtain ⟨re, k1, k2⟩ := hwr.re hri
          have hmm := row_re h2.mem.2 hri k1
          have hre := hw.orRe re (List.mem_of_getElem? k1)
          rw [index_eq _ hri, k1]
          dsimp only
          split
          · rename_i hsi
            obtain ⟨h, hn⟩ | ⟨e, t, hne, h, hcap, ht⟩ := groupO_text (k2 hmm) hre hmm hl
            · simp only [h]
              exact ⟨raw0, .rowNoGroup h0 hc.1 hc.2 h1 h2 hri hsi k1 (fun t ht => hn hsi ⟨t, ht⟩) ho, hot⟩
            · simp only [h]
              exact ⟨t, .rowGroup h0 hc.1 hc.2 h1 h2 hri hsi k1 hcap, ht⟩
          · rename_i hsi
            obtain ⟨raw, hr⟩ := hwr.ver
            exact ⟨raw, .rowConst h0 hc.1 hc.2 h1 h2 (.inr (by simpa using hsi)) hr, hr⟩
        · rename_i hri
          obtain ⟨raw, hr⟩ := hwr.ver
          exact ⟨raw, .rowConst h0 hc.1 hc.2 h1 h2 (.inl (by omega)) hr, hr⟩
    · rename_i hc
      rw [h]
      refine ⟨raw0, .own h0 ?_ ho, hot⟩
      by_cases h1 : 0 ≤ x.matchRI
      · exact .inr (by simpa [h1] using hc)
      · exact .inl (by omega)

end Verif

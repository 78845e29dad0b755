import Verif.Props.ShippedPattern
import Verif.Props.OS
/-
C81, C82: what version strings look like, for the shipped tables and the modelled regexp library.
-/
namespace Verif

open Data Regexp Compiler

/-- Digits and dots, possibly none. -/
def Numeric (s : Bytes) : Prop := ∀ c ∈ s, c = 46 ∨ (48 ≤ c.toNat ∧ c.toNat ≤ 57)

/-- The client rules that take something else for a version: seven whose version group allows letters or signs, and Yandex Browser, whose version is
the whole match. -/
def oddClients : List Bytes :=
  [ascii "Obigo[ ]?(?:InternetBrowser|Browser)?(?:[ /]([a-z0-9]*))?",
   ascii "YaBrowser(?:/(\\d+[.\\d]*))(?: \\((alpha|beta)\\))?",
   ascii "^Newsboat/([a-z\\d\\.]+)",
   ascii "Google-HTTP-Java-Client(?:/(\\d+[\\.\\w-]+))?",
   ascii "(?:AlexaMediaPlayer/|^AlexaMediaPlayer/|^Echo/|Amazon;Echo(?:_|;)|^AlexaService/|^Alexa Mobile Voice/)([a-z\\d]+\\.[a-z.\\d]+)?",
   ascii "MediaGo(?:/([\\w\\.]+))?",
   ascii "JHV/SWHV-([.\\d+]+)",
   ascii "Instacast(?:HD)?/([\\d\\.abc]+) CFNetwork/([\\d.]+) Darwin/([\\d.]+)"]

theorem numeric_of {s : Bytes} (h : ∀ c ∈ s, ∃ y ∈ numS, y.1 ≤ c.toNat ∧ c.toNat ≤ y.2) : Numeric s := by
  intro c hc
  obtain ⟨y, hy, h1, h2⟩ := h c hc
  simp only [numS, List.mem_cons, List.not_mem_nil, or_false] at hy
  rcases hy with rfl | rfl
  · exact .inl (UInt8.toNat_inj.mp (by show c.toNat = 46; dsimp only at h1 h2; omega))
  · exact .inr ⟨h1, h2⟩

theorem numeric_all {s : Bytes} (h : (s.all fun c => c == 46 || (Nat.ble 48 c.toNat && Nat.ble c.toNat 57)) = true) : Numeric s := by
  intro c hc
  have := List.all_eq_true.mp h c hc
  simpa [Nat.ble_eq] using this

theorem odd_src {k : Nat} (hk : k ∈ crOdd) {c : List Chunk} (h : crRe[k]? = some c) : ∃ p ∈ oddClients, buf c = atWord p := by
  have : ∀ k ∈ crOdd, ((crRe[k]?).map buf).all (fun b => oddClients.any fun p => b == atWord p) = true := by decide +kernel
  have := this k hk
  rw [h] at this
  simp only [Option.map_some, Option.all_some, List.any_eq_true, beq_iff_eq] at this
  exact this

theorem insides_word {p : Bytes} {rx : Rx} (h : parse (anyCase p) = some rx) : ∃ ry, parse (atWord p) = some ry ∧ ∀ n, insides n ry = insides n rx := by
  refine ⟨_, by rw [atWord_eq]; exact parse_atWord h, fun n => ?_⟩
  have e : wordRx = .alt (.bot) (.alt (.cls true true [(95, 95), (45, 45), (48, 57), (65, 90)]) (.alt (.cat (.cls true true [(45, 45), (48, 57), (65, 90)]) (.cls true false [(95, 95)])) (.alt (.cat (.cls true false [(115, 115)]) (.cat (.cls true false [(112, 112)]) (.cat (.cls true false [(114, 114)]) (.cat (.cls true false [(100, 100)]) (.cls true false [(45, 45)]))))) (.cat (.cls true false [(77, 77)]) (.cat (.cls true false [(90, 90)]) (.cls true false [(45, 45)])))))) := by decide +kernel
  rw [insides, e]
  rfl

/-- The version text of a client rule of the shipped tables. -/
theorem version_numeric {u : Bytes} {rows : List ClientTuple} {v : ClientTuple} (hr : rows ∈ Regexp.lib.tables.crIdx) (hv : v ∈ rows) {raw : Bytes}
    (h : ClientVersion Regexp.lib.tables u v raw) :
    Numeric raw ∨ ∃ re p, p ∈ oddClients ∧ Regexp.lib.tables.crRe[v.matchRI.toNat]? = some re ∧ re.src = atWord p := by
  have hrow := List.all_eq_true.mp (crRows_ok rows hr) v hv
  cases h with
  | const h0 h1 h =>
    left
    have := List.all_eq_true.mp (crConst_ok rows hr) v hv
    have hs : sliceE? (buf crBuf) v.version64 = some raw := sliceE_iff.mpr h
    unfold crConstOK at this
    rw [hs] at this
    simp only [Bool.or_eq_true, beq_iff_eq, h1, false_or] at this
    exact numeric_all (by simpa using this)
  | absent | noGroup | literal => exact .inl fun c hc => by cases hc
  | @group re _ h0 h1 h2 hre h =>
    obtain ⟨c, hc, rfl⟩ : ∃ c, crRe[v.matchRI.toNat]? = some c ∧ Regexp.compile (buf c) = re := by
      have : (crRe.map fun p => Regexp.compile (buf p))[v.matchRI.toNat]? = some re := hre
      rw [List.getElem?_map] at this
      exact Option.map_eq_some_iff.mp this
    by_cases hodd : v.matchRI.toNat ∈ crOdd
    · obtain ⟨p, hp, e⟩ := odd_src hodd hc
      exact .inr ⟨_, p, hp, hre, e⟩
    · left
      obtain ⟨p, rx, g1, g2, g3⟩ := wordOK_spec (allFrom_get crRe_word hc)
      rw [Nat.zero_add] at g3
      obtain ⟨ry, g4, g5⟩ := insides_word g2
      rw [← g1] at g4
      have g6 := g3 hodd
      have hvi : v.browserVI.toInt.toNat = if crTwo.contains v.matchRI.toNat then 2 else 1 := by
        unfold crRowOK at hrow
        simp only [Bool.or_eq_true, decide_eq_true_eq, bne_iff_ne, ne_eq, beq_iff_eq, h1, h2, not_true, or_false,
          List.contains_eq_mem, hodd, show ¬ v.matchRI < 0 by omega, false_or] at hrow
        by_cases ht : v.matchRI.toNat ∈ crTwo
        · simp only [ht, if_true, beq_iff_eq] at hrow
          simp only [hrow, List.contains_eq_mem, ht, decide_true, if_true]; rfl
        · simp only [ht, if_false, beq_iff_eq] at hrow
          simp only [hrow, List.contains_eq_mem, ht, decide_false, Bool.false_eq_true, if_false]; rfl
      rw [← hvi] at g6
      refine numeric_of (captured_within (by unfold Plainer numS; decide) g4 (n := v.browserVI.toInt.toNat) ?_ (by rw [g5]; exact g6) h)
      rw [hvi]
      split <;> decide

/-- C81: with the shipped tables GetBrowserVersionString consists of digits and dots, the last one a digit, unless the selected rule is one of the
eight. -/
theorem C81_partial {H : Bytes → UInt64} {q : Req} (hl : q.ua.length < 2 ^ 32) {s : Bytes}
    (h : uncached Regexp.lib.tables H .browserVersionString q = some (.text s)) :
    (Numeric s ∧ s.getLast? ≠ some 46) ∨
    ∃ t v re p, ClientChosen Regexp.lib.tables q.mc q.ua t v ∧ Regexp.lib.tables.crRe[v.matchRI.toNat]? = some re ∧ p ∈ oddClients ∧ re.src = atWord p := by
  have hsafe : ChosenWF Regexp.lib.tables q.mc q.ua := by
    refine chosen_wf _ fun t v hc hv => ?_
    rw [C27_panics (H := H) _ hc hv (g := .browserVersionString) rfl] at h
    cases h
  obtain ⟨s', ha, hlast, hs⟩ := C30_shape (H := H) (shipped_wfbase Regexp.lib q.ua) hsafe hl
  rw [h] at ha
  cases ha
  rcases hs with ⟨-, rfl⟩ | ⟨t, v, raw, hc, hv, r, n, hr, e, -⟩
  · exact .inl ⟨fun c hc => (by cases hc), hlast⟩
  · obtain ⟨a, z, i, rows, -, -, -, h4, h5⟩ := id hc
    rcases version_numeric (List.mem_of_getElem? h4) h5.mem.1 hv with hn | ⟨re, p, g1, g2, g3⟩
    · refine .inl ⟨fun c hc => hn c ?_, hlast⟩
      have hcr : c ∈ r := by rw [e]; exact List.mem_append_left _ hc
      rcases hr with ⟨-, rfl⟩ | ⟨p, -, rfl⟩
      · exact hcr
      · exact List.mem_append_right _ (List.mem_cons_of_mem _ hcr)
    · exact .inr ⟨t, v, re, p, hc, g2, g1, g3⟩

/-- C81 without the exceptions. -/
def C81Claim : Prop := ∀ (H : Bytes → UInt64) (q : Req) (s : Bytes), q.ua.length < 2 ^ 32 → uncached Regexp.lib.tables H .browserVersionString q = some (.text s) → Numeric s

/-- C81 without the exceptions is refuted. -/
theorem C81_refuted : ¬ C81Claim := by
  intro h
  have := h (fun _ => 0) { ua := ascii "JHV/SWHV-2+3", mc := ClientTypeMediaPlayer } (ascii "2+3") (by decide) (by decide +kernel) 43 (by decide)
  revert this
  decide

/-- The rule of Yandex Browser. -/
def yandex : Bytes := ascii "YaBrowser(?:/(\\d+[.\\d]*))(?: \\((alpha|beta)\\))?"

/-- C81, Yandex Browser: there is a rule with this regexp, and when a rule with it is selected the version is the whole match, from the first slash
on. -/
theorem C81_yandex : (∃ rows v, Regexp.lib.tables.crIdx[1]? = some rows ∧ v ∈ rows ∧ v.matchRI = 393) ∧
    Regexp.lib.tables.crRe[393]? = some (Regexp.compile (atWord yandex)) ∧
    ∀ {H : Bytes → UInt64} {q : Req} {t : ClientType} {v : ClientTuple} {s : Bytes}, q.ua.length < 2 ^ 32 → ClientChosen Regexp.lib.tables q.mc q.ua t v →
      v.matchRI = 393 → uncached Regexp.lib.tables H .browserVersionString q = some (.text s) →
      ∃ m, Captures (Regexp.compile (atWord yandex)) q.ua 0 m ∧ Cleaned m s := by
  have hre : Regexp.lib.tables.crRe[393]? = some (Regexp.compile (atWord yandex)) := by
    have : (crRe[393]?).map buf = some (atWord yandex) := by decide +kernel
    obtain ⟨c, h1, h2⟩ := Option.map_eq_some_iff.mp this
    show (crRe.map fun p => Regexp.compile (buf p))[393]? = _
    rw [List.getElem?_map, h1, ← h2]
    rfl
  refine ⟨?_, hre, ?_⟩
  · have : (crIdx1.any fun v => decide (v.matchRI = 393)) = true := by decide +kernel
    obtain ⟨v, h1, h2⟩ := List.any_eq_true.mp this
    exact ⟨crIdx1, v, rfl, h1, of_decide_eq_true h2⟩
  · intro H q t v s hl hc hm h
    have hrow : ∀ rows ∈ [crIdx0, crIdx1, crIdx2, crIdx3, crIdx4, crIdx5, crIdx6], (rows.all fun v => !decide (v.matchRI = 393) || (v.version64 == 0 && v.browserVI == 0)) = true := by
      decide +kernel
    have hsafe : ChosenWF Regexp.lib.tables q.mc q.ua := by
      refine chosen_wf _ fun t v hc hv => ?_
      rw [C27_panics (H := H) _ hc hv (g := .browserVersionString) rfl] at h
      cases h
    obtain ⟨s', ha, hlast, hs⟩ := C30_shape (H := H) (shipped_wfbase Regexp.lib q.ua) hsafe hl
    rw [h] at ha
    cases ha
    rcases hs with ⟨hn, -⟩ | ⟨t', v', raw, hc', hv, hcl⟩
    · exact absurd hn hc.not_none
    · obtain ⟨rfl, rfl⟩ := hc.unique hc'
      obtain ⟨a, z, i, rows, -, -, -, h4, h5⟩ := id hc
      have := List.all_eq_true.mp (hrow rows (List.mem_of_getElem? h4)) v h5.mem.1
      simp only [hm, decide_true, Bool.not_true, Bool.false_or, Bool.and_eq_true, beq_iff_eq] at this
      have hm' : v.matchRI.toNat = 393 := by rw [hm]; rfl
      cases hv with
      | const h0 h1 => exact absurd this.1 h1
      | @group re _ h0 h1 h2 hre' hg =>
        rw [hm', hre] at hre'
        cases hre'
        rw [this.2] at hg
        exact ⟨raw, hg, hcl⟩
      | @absent re h0 h1 h2 hre' hg =>
        rw [hm', hre] at hre'
        cases hre'
        rw [this.2] at hg
        obtain ⟨-, re', h6, h7⟩ | ⟨h6, -⟩ := h5.mem.2
        · rw [hm', hre] at h6
          cases h6
          obtain ⟨t, ht⟩ := whole_captured h7
          exact absurd ht (hg t)
        · exact absurd h0 (by omega)
      | noGroup h0 h1 h2 => rw [this.2] at h2; exact absurd h2 (by decide)
      | literal h0 => rw [hm] at h0; exact absurd h0 (by decide)

/-- A Yandex Browser version with letters in it. -/
example : Captures (Regexp.compile (atWord yandex)) (ascii "x/YaBrowser/23.1 (beta)") 0 (ascii "/YaBrowser/23.1 (beta)") ∧
    Cleaned (ascii "/YaBrowser/23.1 (beta)") (ascii "YaBrowser/23.1 (beta)") :=
  ⟨⟨[1, 23, 12, 16, 18, 22], ascii "x", [], by decide +kernel, by decide +kernel, by decide +kernel, by decide +kernel⟩,
   ascii "YaBrowser/23.1 (beta)", 0, .inr ⟨[], by simp, by decide +kernel⟩, by decide +kernel, by decide +kernel⟩

/-- A version by the shipped tables. -/
example : uncached Regexp.lib.tables (fun _ => 0) .browserVersionString { ua := ascii "curl/7.1.", mc := ClientTypeLibrary } = some (.text (ascii "7.1")) := by
  decide +kernel

/-! ### C82 -/

/-- The OS rules that take something else for a version. -/
def oddSystems : List Bytes :=
  [ascii "(?:Series ?60|SymbOS|S60)(?:[ /]?(\\d+[.\\d]+|V\\d+))?", ascii "Nintendo (Wii|Switch)", ascii "Nitro|Nintendo ([3]?DS[i]?)",
   ascii "PlayStation ((?:Portable|Vita))"]

theorem osOdd_src {k : Nat} (hk : k ∈ orOdd) {c : List Chunk} (h : orRe[k]? = some c) : ∃ p ∈ oddSystems, buf c = anyCase p := by
  have : ∀ k ∈ orOdd, ((orRe[k]?).map buf).all (fun b => oddSystems.any fun p => b == anyCase p) = true := by decide +kernel
  have := this k hk
  rw [h] at this
  simp only [Option.map_some, Option.all_some, List.any_eq_true, beq_iff_eq] at this
  exact this

/-- Digits, dots and underscores. -/
def Numeric' (s : Bytes) : Prop := ∀ c ∈ s, c = 95 ∨ c = 46 ∨ (48 ≤ c.toNat ∧ c.toNat ≤ 57)

theorem Numeric.weaken {s : Bytes} (h : Numeric s) : Numeric' s := fun c hc => .inr (h c hc)

theorem numeric'_of {s : Bytes} (h : ∀ c ∈ s, ∃ y ∈ numS', y.1 ≤ c.toNat ∧ c.toNat ≤ y.2) : Numeric' s := by
  intro c hc
  obtain ⟨y, hy, h1, h2⟩ := h c hc
  simp only [numS', List.mem_cons, List.not_mem_nil, or_false] at hy
  rcases hy with rfl | rfl | rfl
  · exact .inr (.inl (UInt8.toNat_inj.mp (by show c.toNat = 46; dsimp only at h1 h2; omega)))
  · exact .inr (.inr ⟨h1, h2⟩)
  · exact .inl (UInt8.toNat_inj.mp (by show c.toNat = 95; dsimp only at h1 h2; omega))

theorem osGroup_numeric {u : Bytes} {ri : Int} {vi : Int8} (h0 : 0 ≤ ri) (h1 : vi ≠ -1) (hg : groupOK ri vi = true) {re : Re}
    (hre : Regexp.lib.tables.orRe[ri.toNat]? = some re) {raw : Bytes} (h : Captures re u vi.toInt.toNat raw) :
    Numeric' raw ∨ ri.toNat ∈ orOdd := by
  obtain ⟨c, hc, rfl⟩ : ∃ c, orRe[ri.toNat]? = some c ∧ Regexp.compile (buf c) = re := by
    have : (orRe.map fun p => Regexp.compile (buf p))[ri.toNat]? = some re := hre
    rw [List.getElem?_map] at this
    exact Option.map_eq_some_iff.mp this
  by_cases hodd : ri.toNat ∈ orOdd
  · exact .inr hodd
  · left
    obtain ⟨rx, g2, g3⟩ := osOK_spec (allFrom_get orRe_ok hc)
    rw [Nat.zero_add] at g3
    have g6 := g3 hodd
    have hvi : vi.toInt.toNat = if orTwo.contains ri.toNat then 2 else 1 := by
      unfold groupOK at hg
      simp only [Bool.or_eq_true, decide_eq_true_eq, beq_iff_eq, h1, or_false, List.contains_eq_mem, hodd, show ¬ ri < 0 by omega, false_or] at hg
      by_cases ht : ri.toNat ∈ orTwo
      · simp only [ht, if_true, beq_iff_eq] at hg
        simp only [hg, List.contains_eq_mem, ht, decide_true, if_true]; rfl
      · simp only [ht, if_false, beq_iff_eq] at hg
        simp only [hg, List.contains_eq_mem, ht, decide_false, Bool.false_eq_true, if_false]; rfl
    rw [← hvi] at g6
    refine numeric'_of (captured_within (by unfold Plainer numS'; decide) g2 (n := vi.toInt.toNat) ?_ g6 h)
    rw [hvi]
    split <;> decide

theorem osConst_numeric {e : Entry64} (h : osConstOK (buf orBuf) e = true) {raw : Bytes} (ht : Text Regexp.lib.tables.orBuf e raw) :
    Numeric raw ∨ raw ∈ osWords := by
  have hs : sliceE? (buf orBuf) e = some raw := sliceE_iff.mpr ht
  unfold osConstOK at h
  rw [hs] at h
  rcases Bool.or_eq_true _ _ ▸ h with h | h
  · exact .inl (numeric_all h)
  · exact .inr (List.contains_iff_mem.mp h)

theorem osOwn_numeric {u : Bytes} {x : OSTuple} (hx : x ∈ orOs) {raw : Bytes} (h : OSOwnVersion Regexp.lib.tables u x raw) :
    Numeric' raw ∨ x.matchRI.toNat ∈ orOdd := by
  cases h with
  | group h0 h1 hr h => exact osGroup_numeric h0 h1 (List.all_eq_true.mp orOs_group x hx) hr h
  | none => exact .inl fun c hc => by cases hc

theorem osVersion_numeric {u : Bytes} {x : OSTuple} (hx : x ∈ orOs) {raw : Bytes} (h : OSVersionText Regexp.lib.tables u x raw) :
    Numeric' raw ∨ raw ∈ osWords ∨ x.matchRI.toNat ∈ orOdd := by
  have own : ∀ {raw}, OSOwnVersion Regexp.lib.tables u x raw → Numeric' raw ∨ raw ∈ osWords ∨ x.matchRI.toNat ∈ orOdd := by
    intro raw h
    rcases osOwn_numeric hx h with h | h
    · exact .inl h
    · exact .inr (.inr h)
  have mem : ∀ {rows : List OSVersionTuple} {e}, Rows Regexp.lib.tables.orOv e rows → ∀ w ∈ rows, w ∈ orOv := by
    rintro rows e ⟨a, z, h, -⟩ w hw
    have h : orOv = a ++ rows ++ z := h
    rw [h]; simp [hw]
  cases h with
  | const h0 h =>
    rcases osConst_numeric (List.all_eq_true.mp orOs_const x hx) h with h | h
    · exact .inl h.weaken
    · exact .inr (.inl h)
  | @rowGroup rows w re _ h0 h1 h2 hr hf h3 h4 hre h =>
    have := List.all_eq_true.mp orOv_group w (mem hr w hf.mem.1)
    simp only [Bool.and_eq_true, Bool.not_eq_true', List.contains_eq_mem, decide_eq_false_iff_not] at this
    rcases osGroup_numeric h3 h4 this.1 hre h with h | h
    · exact .inl h
    · exact absurd h this.2
  | rowNoGroup _ _ _ _ _ _ _ _ _ h => exact own h
  | @rowConst rows w _ h0 h1 h2 hr hf h3 h =>
    rcases osConst_numeric (List.all_eq_true.mp orOv_const w (mem hr w hf.mem.1)) h with h | h
    · exact .inl h.weaken
    · exact .inr (.inl h)
  | noRow _ _ _ _ _ h => exact own h
  | own _ _ h => exact own h

/-- C82: with the shipped tables GetOSVersionString consists of digits and dots, or is one of the constants of the rules, unless the selected rule is
one of the four. -/
theorem C82_partial {H : Bytes → UInt64} {q : Req} (hl : q.ua.length < 2 ^ 32) {s : Bytes}
    (h : uncached Regexp.lib.tables H .osVersionString q = some (.text s)) :
    Numeric s ∨ s ∈ osWords ∨
    ∃ x re p, OSChosen Regexp.lib.tables q.ua x ∧ Regexp.lib.tables.orRe[x.matchRI.toNat]? = some re ∧ p ∈ oddSystems ∧ re.src = anyCase p := by
  obtain ⟨s', ha, hus, hs⟩ := C31_shape (H := H) (shipped_wfdev Regexp.lib q.ua) hl
  rw [h] at ha
  cases ha
  rcases hs with ⟨-, rfl⟩ | ⟨x, raw, hc, hv, hlen, hmap⟩
  · exact .inl fun c hc => (by cases hc)
  · have hx : x ∈ orOs := hc.mem.1
    rcases osVersion_numeric hx hv with hn | hw | ho
    · left
      intro c hc'
      obtain ⟨i, hi⟩ := List.mem_iff_getElem?.mp hc'
      have hlt := (List.getElem?_eq_some_iff.mp hi).1
      have hr := hmap i raw[i] (List.getElem?_eq_getElem (by omega))
      rw [hi] at hr
      have := hn raw[i] (List.getElem_mem _)
      rw [Option.some.inj hr]
      split
      · exact .inl rfl
      · rename_i hne
        rcases this with g | g
        · exact absurd g hne
        · exact g
    · right; left
      have : ∀ w ∈ osWords, 95 ∉ w := by decide +kernel
      have hno := this raw hw
      have e : s = raw := by
        refine List.ext_getElem? fun i => ?_
        by_cases hi : i < raw.length
        · rw [hmap i raw[i] (List.getElem?_eq_getElem hi), if_neg, List.getElem?_eq_getElem hi]
          intro g
          exact hno (g ▸ List.getElem_mem hi)
        · rw [List.getElem?_eq_none (by omega), List.getElem?_eq_none (by omega)]
      rw [e]
      exact hw
    · right; right
      obtain ⟨-, re, h6, -⟩ | ⟨h6, -⟩ := hc.mem.2.1
      · obtain ⟨c, hc', rfl⟩ : ∃ c, orRe[x.matchRI.toNat]? = some c ∧ Regexp.compile (buf c) = re := by
          have : (orRe.map fun p => Regexp.compile (buf p))[x.matchRI.toNat]? = some re := h6
          rw [List.getElem?_map] at this
          exact Option.map_eq_some_iff.mp this
        obtain ⟨p, hp, e⟩ := osOdd_src ho hc'
        exact ⟨x, _, p, hc, h6, hp, e⟩
      · rw [show x.matchRI.toNat = 0 by omega] at ho
        exact absurd ho (by decide)

/-- The versions of operating systems are numbers or names, never templates. -/
def C82Claim : Prop := ∀ (H : Bytes → UInt64) (q : Req) (s : Bytes), q.ua.length < 2 ^ 32 → uncached Regexp.lib.tables H .osVersionString q = some (.text s) → 36 ∉ s

/-- C82, that versions are no templates, is refuted: iOS 19.1 is reported as version "26.$1". -/
theorem C82_refuted : ¬ C82Claim := by
  intro h
  exact h (fun _ => 0) { ua := ascii "iOS 19_1" } (ascii "26.$1") (by decide) (by decide +kernel) (by decide)

end Verif

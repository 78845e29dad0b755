import Verif.Props.ShippedNames
/-
C86: the answers about one user agent fit together, for the shipped tables and the modelled regexp library.
-/
namespace Verif

open Data Regexp Compiler

/-- No rule is named "UNK". -/
theorem crUnk : ∀ rows ∈ [crIdx0, crIdx1, crIdx2, crIdx3, crIdx4, crIdx5, crIdx6],
    (rows.all fun v => v.browser64 != 0 && !(textN crBuf v.browser64 == [85, 78, 75])) = true := by decide +kernel

theorem drUnk : ∀ rows ∈ [drIdx0, drIdx1, drIdx2, drIdx3, drIdx4, drIdx5, drIdx6, drIdx7],
    (rows.all fun v => v.brand64 != 0 && !(textN drBuf v.brand64 == [85, 78, 75])) = true := by decide +kernel

theorem notUnk {cs : List Chunk} {e : Entry64} (h : (!(textN cs e == [85, 78, 75])) = true) {t : Bytes} (ht : Text (buf cs) e t) : t ≠ ascii "UNK" := by
  rintro rfl
  rw [textN_eq ht] at h
  exact absurd h (by decide)

theorem safe_of {H : Bytes → UInt64} {q : Req} {g : Getter} (hg : g.isC = true)
    (h : uncached Regexp.lib.tables H g q ≠ none) : ChosenWF Regexp.lib.tables q.mc q.ua :=
  chosen_wf _ fun _ _ hc hv => h (C27_panics (H := H) _ hc hv hg)

section
variable {H : Bytes → UInt64} {q : Req}

/-- C86, client: without header GetBrowser is "UNK" exactly if GetClientType is 0. -/
theorem C86_client (hh : q.header = []) {s : Bytes} {t : ClientType} (hs : uncached Regexp.lib.tables H .browser q = some (.text s))
    (ht : uncached Regexp.lib.tables H .clientType q = some (.clientType t)) : s = ascii "UNK" ↔ t = 0 := by
  rcases C23_client_name hh hs with ⟨t1, v, n, h1, h2, h3⟩ | ⟨h1, h3⟩
  · cases h3
    rcases C23_client_type ht with ⟨t2, v2, h4, h5⟩ | ⟨h4, -⟩
    · cases h5
      refine iff_of_false ?_ ?_
      · obtain ⟨a, z, i, rows, ho, -, -, h6, h7⟩ := id h1
        have := List.all_eq_true.mp (crUnk rows (List.mem_of_getElem? h6)) v h7.mem.1
        simp only [Bool.and_eq_true, bne_iff_ne, ne_eq] at this
        rcases h2 with ⟨h2, -⟩ | ⟨-, h2⟩
        · exact absurd h2 this.1
        · exact notUnk (cs := crBuf) this.2 h2
      · obtain ⟨h6, -⟩ := h4.type
        exact (by decide : ∀ t ∈ clientOrder.map (·.1), t ≠ 0) _ h6
    · exact absurd h4 h1.not_none
  · cases h3
    rcases C23_client_type ht with ⟨t2, v2, h4, h5⟩ | ⟨h4, h5⟩
    · exact absurd h1 h4.not_none
    · cases h5
      exact iff_of_true rfl rfl

/-- C86, client version: if there is a version, the client is known. -/
theorem C86_version (hl : q.ua.length < 2 ^ 32) {s : Bytes} {t : ClientType} (hs : uncached Regexp.lib.tables H .browserVersionString q = some (.text s))
    (ht : uncached Regexp.lib.tables H .clientType q = some (.clientType t)) (h : s ≠ []) : t ≠ 0 := by
  have hsafe := safe_of (g := .browserVersionString) rfl (by rw [hs]; simp)
  obtain ⟨s', ha, -, hc⟩ := C30_shape (H := H) (shipped_wfbase Regexp.lib q.ua) hsafe hl
  rw [hs] at ha
  cases ha
  rcases hc with ⟨-, rfl⟩ | ⟨t1, v, raw, hc, -⟩
  · exact absurd rfl h
  · rcases C23_client_type ht with ⟨t2, v2, h4, h5⟩ | ⟨h4, -⟩
    · cases h5
      exact (by decide : ∀ t ∈ clientOrder.map (·.1), t ≠ 0) _ h4.type.1
    · exact absurd h4 hc.not_none

/-- C86, engine: only browsers have one. -/
theorem C86_engine (hl : q.ua.length < 2 ^ 32) {s : Bytes} {t : ClientType} (hs : uncached Regexp.lib.tables H .engine q = some (.text s))
    (ht : uncached Regexp.lib.tables H .clientType q = some (.clientType t)) (h : s ≠ []) : t = ClientTypeBrowser := by
  have hsafe := safe_of (g := .engine) rfl (by rw [hs]; simp)
  obtain ⟨s', ha, hc⟩ := C55_engine (H := H) (shipped_wfbase Regexp.lib q.ua) hsafe hl
  rw [hs] at ha
  cases ha
  rcases hc with ⟨v, e, hc, -⟩ | ⟨-, rfl⟩ | ⟨-, rfl⟩
  · rcases C23_client_type ht with ⟨t2, v2, h4, h5⟩ | ⟨h4, -⟩
    · cases h5
      exact (h4.unique hc).1
    · exact absurd h4 hc.not_none
  · exact absurd rfl h
  · exact absurd rfl h

theorem RuleEngine.unique {T : Tables} {u : Bytes} {v : ClientTuple} {e e' : Entry64} (h : RuleEngine T u v e) (h' : RuleEngine T u v e') : e = e' := by
  cases h with
  | const h =>
    cases h' with
    | const => rfl
    | fn h' => exact absurd h h'
  | fn h hv hm hf =>
    cases h' with
    | const h' => exact absurd h' h
    | fn _ hv' hm' hf' =>
      rw [hf] at hf'
      cases hf'
      have := hv.unique hv'
      subst this
      rw [hm.unique hm']

theorem EngineOf.unique {T : Tables} {u : Bytes} {v : ClientTuple} {e e' : Entry64} (h : EngineOf T u v e) (h' : EngineOf T u v e') : e = e' := by
  cases h with
  | own h h0 =>
    cases h' with
    | own h' => exact h.unique h'
    | first h' => exact absurd (h.unique h') h0
    | none h' => exact absurd (h.unique h') h0
  | first h hr hf =>
    cases h' with
    | own h' h0 => exact absurd (h'.unique h) h0
    | first _ hr' hf' => rw [hr] at hr'; cases hr'; rw [hf.unique hf']
    | none _ hr' hf' => rw [hr] at hr'; cases hr'; exact absurd hf.mem.2 (hf' _ hf.mem.1)
  | none h hr hf =>
    cases h' with
    | own h' h0 => exact absurd (h'.unique h) h0
    | first _ hr' hf' => rw [hr] at hr'; cases hr'; exact absurd hf'.mem.2 (hf _ hf'.mem.1)
    | none => rfl

/-- The engines with a version regexp have a name. -/
theorem crEv_named : (crEv.all fun x => !(textN crBuf (.ofNat x.1)).isEmpty && Nat.blt x.1 (2 ^ 64)) = true := by decide +kernel

/-- C86, engine version: if there is a version, the engine is known, and so the client is a browser. -/
theorem C86_engine_version (hl : q.ua.length < 2 ^ 32) {s n : Bytes} (hs : uncached Regexp.lib.tables H .engineVersionString q = some (.text s))
    (hn : uncached Regexp.lib.tables H .engine q = some (.text n)) (h : s ≠ []) : n ≠ [] := by
  have hsafe := safe_of (g := .engine) rfl (by rw [hn]; simp)
  obtain ⟨n', ha, hc⟩ := C55_engine (H := H) (shipped_wfbase Regexp.lib q.ua) hsafe hl
  rw [hn] at ha
  cases ha
  obtain ⟨s', hb, hd⟩ := C56_engine_version (H := H) (shipped_wfbase Regexp.lib q.ua) hsafe hl
  rw [hs] at hb
  cases hb
  rcases hd with ⟨v, e, hv, he, hver⟩ | ⟨-, rfl⟩ | ⟨-, rfl⟩
  · rcases hver with ⟨h0, i, re, h1, -⟩ | ⟨-, rfl⟩
    · rcases hc with ⟨v', e', hv', he', ht⟩ | ⟨⟨t, v', hv', hb⟩, -⟩ | ⟨hv', -⟩
      · obtain ⟨-, rfl⟩ := hv.unique hv'
        have := he.unique he'
        subst this
        rcases ht with ⟨-, ht⟩ | ⟨ht, -⟩
        · rintro rfl
          have h1 : mapOf crEv e = some i := h1
          unfold mapOf at h1
          obtain ⟨x, hx, -⟩ := Option.map_eq_some_iff.mp h1
          have hk := List.find?_some hx
          have := List.all_eq_true.mp crEv_named x (List.mem_of_find?_eq_some hx)
          rw [Nat.eq_of_beq_eq_true hk, UInt64.ofNat_toNat, textN_eq (t := []) ht] at this
          exact absurd this (by simp)
        · exact absurd ht h0
      · exact absurd (hv.unique hv').1.symm hb
      · exact absurd hv' hv.not_none
    · exact absurd rfl h
  · exact absurd rfl h
  · exact absurd rfl h

/-- C86, operating system: "UNK" exactly if no rule applies, and then there is no version either. -/
theorem C86_os (hl : q.ua.length < 2 ^ 32) {s n : Bytes} (hs : uncached Regexp.lib.tables H .osVersionString q = some (.text s))
    (hn : uncached Regexp.lib.tables H .os q = some (.text n)) : (n = ascii "UNK" ↔ OSNone Regexp.lib.tables q.ua) ∧ (n = ascii "UNK" → s = []) := by
  have key : n = ascii "UNK" ↔ OSNone Regexp.lib.tables q.ua := by
    rcases C84_os hl hn with ⟨h1, rfl⟩ | ⟨⟨x, h1⟩, h2⟩
    · exact iff_of_true rfl h1
    · refine iff_of_false ?_ h1.not_none
      rcases h2 with h2 | ⟨-, m, h2, h3⟩
      · rintro rfl
        exact (by decide +kernel : ascii "UNK" ∉ osNames) h2
      · rintro rfl
        have h4 := h3.can (by
          intro c hc
          obtain ⟨b, hb, rfl⟩ := List.mem_map.mp hc
          exact (by decide +kernel : ∀ n ∈ distroNames, ∀ b ∈ n, b.toNat < 128) m h2 b hb) (by decide)
        have := (by decide +kernel : ∀ n ∈ distroNames, canB (n.map UInt8.toNat) (ascii "UNK") = false) m h2
        rw [h4] at this
        cases this
  refine ⟨key, fun h => ?_⟩
  obtain ⟨s', ha, -, hc⟩ := C31_shape (H := H) (shipped_wfdev Regexp.lib q.ua) hl
  rw [hs] at ha
  cases ha
  rcases hc with ⟨-, rfl⟩ | ⟨x, raw, hc, -⟩
  · rfl
  · exact absurd (key.mp h) hc.not_none

/-- C86, device: if there is a model, the brand is known. -/
theorem C86_model (hl : q.ua.length < 2 ^ 26) {s n : Bytes} (hs : uncached Regexp.lib.tables H .model q = some (.text s))
    (hn : uncached Regexp.lib.tables H .brand q = some (.text n)) (h : s ≠ []) : n ≠ ascii "UNK" := by
  obtain ⟨mo, s', h1, h2, h3⟩ := C32_model (H := H) (q := q) (shipped_wfdev Regexp.lib _) (by omega) (shipped_bound _ hl)
  rw [hs] at h3
  cases h3
  rcases h1 with ⟨d, v, typ, hc, -⟩ | ⟨-, rfl⟩
  · obtain ⟨n', e, hb⟩ := C41_brand hn
    cases e
    rcases hb with ⟨d', v', hc', hb⟩ | ⟨hd, -⟩ | ⟨hd, -⟩
    · obtain ⟨a, z, b, i, rows, -, -, -, h4, h5⟩ := hc'
      have := List.all_eq_true.mp (drUnk rows (List.mem_of_getElem? h4)) v' h5.mem.1
      have hp := List.all_eq_true.mp (drNames_ok rows (List.mem_of_getElem? h4)) v' h5.mem.1
      unfold drNameB at hp
      simp only [Bool.and_eq_true, bne_iff_ne, ne_eq] at this hp
      rcases hb with ⟨hb, -⟩ | ⟨-, raw, hb, ht⟩
      · exact absurd hb this.1
      · rw [(proper_text (cs := drBuf) hp.2 hb).trimmed ht]
        exact notUnk (cs := drBuf) this.2 hb
    · exact absurd hd hc.not_none
    · exact absurd hd hc.not_none
  · obtain ⟨a, z, e, -, -⟩ := h2
    have := congrArg List.length e
    simp only [Option.getD_none, List.length_nil, List.length_append, List.length_replicate] at this
    exact absurd (List.length_eq_zero_iff.mp (by omega)) h

end

/-- A client with a version: the hypotheses of `C86_client` and `C86_version` are met. -/
example : let q : Req := { ua := ascii "curl/7.1.", mc := ClientTypeLibrary }
    uncached Regexp.lib.tables (fun _ => 0) .browser q = some (.text (ascii "curl")) ∧
    uncached Regexp.lib.tables (fun _ => 0) .browserVersionString q = some (.text (ascii "7.1")) ∧
    uncached Regexp.lib.tables (fun _ => 0) .clientType q = some (.clientType ClientTypeLibrary) := by decide +kernel

/-- A browser with an engine and its version. -/
example : let q : Req := { ua := ascii "Ladybird/1.0 LibWeb/1.2", mc := ClientTypeBrowser }
    uncached Regexp.lib.tables (fun _ => 0) .engine q = some (.text (ascii "LibWeb")) ∧
    uncached Regexp.lib.tables (fun _ => 0) .engineVersionString q = some (.text (ascii "1.2")) := by decide +kernel

/-- An operating system with a version. -/
example : uncached Regexp.lib.tables (fun _ => 0) .os { ua := ascii "GhostBSD/22.01" } = some (.text (ascii "GhostBSD")) ∧
    uncached Regexp.lib.tables (fun _ => 0) .osVersionString { ua := ascii "GhostBSD/22.01" } = some (.text (ascii "22.01")) := by decide +kernel

end Verif

import Verif.Proofs.ShippedDevice
import Verif.Proofs.Unique
import Verif.Props.Panics
/-
C27, C28: the shipped tables. Every theorem here holds for every regexp library `L : RegexpLib`, that is whatever the regexps match.
-/
namespace Verif

open Data

/-- The shipped tables with the regexps compiled by `L`. -/
abbrev RegexpLib.tables (L : RegexpLib) : Tables := shipped L.compile

section
variable (L : RegexpLib) {H : Bytes → UInt64}

/-! ### C28 -/

/-- C28, clients and engines. The version group of every client rule exists, except for the rules with one of eight regexps. -/
theorem C28_clients : (∀ rows ∈ L.tables.crIdx, ∀ v ∈ rows, ClientRowWF L.tables v ∧ (ClientGroupWF L.tables v ∨ UnsafeRule v)) ∧
    (∀ f ∈ L.tables.crEf, ∀ b, InBuf L.tables.crBuf (f b)) ∧
    (∀ e i, L.tables.crEv e = some i → ∃ re, L.tables.crEvre[i]? = some re ∧ MandatoryGroup re) :=
  ⟨client_rows L, engine_fns L, engine_versions L⟩

/-- C28: the exceptions are real. Every rule with one of the eight regexps reads group 1 of a regexp without groups. -/
theorem C28_exceptions {rows : List ClientTuple} (hr : rows ∈ L.tables.crIdx) {v : ClientTuple} (hv : v ∈ rows) (h : UnsafeRule v) :
    ¬ ClientGroupWF L.tables v := by
  obtain ⟨h1, h2, re, h3, h4, -⟩ := unsafe_row L hr hv h
  intro hg
  have := hg h.1 h1 re h3
  rw [h2, GroupIx, h4] at this
  revert this; decide

/-- C28, operating systems: rows, version rows (every group index exists) and version ranges. -/
theorem C28_os (u : Bytes) : (∀ v ∈ L.tables.orOs, OSRowWF L.tables u v) ∧ ∀ v ∈ L.tables.orOv, OSVersionRowWF L.tables u v :=
  ⟨(os_rows L u).2, os_versions L u⟩

/-- C28, devices, vendors and hints. -/
theorem C28_devices : (∀ rows ∈ L.tables.drIdx, ∀ v ∈ rows, DeviceRowWF L.tables v) ∧ (∀ v ∈ L.tables.drDm, ModelRowWF L.tables v) ∧
    (∀ v ∈ L.tables.vrIdx, VendorRowWF L.tables v) ∧ ∀ h e, L.tables.hrIdx h = some e → InBuf L.tables.hrBuf e :=
  ⟨device_rows L, model_rows L, vendor_rows L, hint_rows L⟩

/-- The tables are those of the repository: numbers of rows. -/
theorem C28_sizes : L.tables.crIdx.map List.length = [17, 588, 28, 144, 43, 611, 35] ∧ L.tables.orOs.length = 330 ∧ L.tables.orOv.length = 211 ∧
    L.tables.drIdx.map List.length = [2, 5, 9, 1987, 9, 15, 23, 185] ∧ L.tables.drDm.length = 16062 ∧ L.tables.vrIdx.length = 15 ∧
    hrIdx.length = 545 := by
  refine ⟨?_, ?_, ?_, ?_, drDm_len, ?_, ?_⟩
  · exact (by decide +kernel : [crIdx0, crIdx1, crIdx2, crIdx3, crIdx4, crIdx5, crIdx6].map List.length = [17, 588, 28, 144, 43, 611, 35])
  · exact (by decide +kernel : orOs.length = 330)
  · exact orOv_len
  · exact (by decide +kernel : [drIdx0, drIdx1, drIdx2, drIdx3, drIdx4, drIdx5, drIdx6, drIdx7].map List.length = [2, 5, 9, 1987, 9, 15, 23, 185])
  · exact (by decide +kernel : vrIdx.length = 15)
  · decide +kernel

/-- An unsafe rule exists: row 43 of the mobile apps. -/
example : ∃ rows v, L.tables.crIdx[5]? = some rows ∧ rows[43]? = some v ∧ UnsafeRule v := by
  have h : (crIdx5[43]?.map fun v => (v.matchRI == 803)) = some true := by decide +kernel
  obtain ⟨v, hv, h⟩ := Option.map_eq_some_iff.mp h
  have h : v.matchRI = 803 := by simpa using h
  refine ⟨crIdx5, v, rfl, hv, by rw [h]; decide, ?_⟩
  rw [h]
  obtain ⟨p, hp⟩ : ∃ p, crRe[803]? = some p := by simp [crRe_len]
  exact ⟨p, bad_unsafe (by decide) hp, hp⟩

/-! ### C27 -/

/-- The claim of C27 for one regexp library: no getter panics, whatever the user agent, the filters and the client hint. -/
def C27Claim (L : RegexpLib) (H : Bytes → UInt64) : Prop := ∀ g q, q.ua.length < 2 ^ 14 → uncached L.tables H g q ≠ none

theorem chosen_wf {q : Req} (h : ∀ t v, ClientChosen L.tables q.mc q.ua t v → ¬ UnsafeRule v) : ChosenWF L.tables q.mc q.ua := by
  rintro t v hc
  obtain ⟨a, z, i, rows, -, -, -, h4, h5⟩ := id hc
  exact (client_rows L rows (List.mem_of_getElem? h4) v h5.mem.1).2.resolve_right (h t v hc)

/-- C27, what is wrong: whenever the selected rule is one with one of the eight regexps, all client getters panic. -/
theorem C27_panics {q : Req} {t : ClientType} {v : ClientTuple} (hc : ClientChosen L.tables q.mc q.ua t v) (hv : UnsafeRule v) {g : Getter}
    (hg : g.isC = true) : uncached L.tables H g q = none := by
  have hout : clientOut L.tables q.mc q.ua = none := by
    cases ho : clientOut L.tables q.mc q.ua with
    | none => rfl
    | some gc =>
      exfalso
      obtain ⟨h1, -⟩ | ⟨t', i, v', h0, h1, h2, h3⟩ := clientOut_char ho
      · exact hc.not_none h1
      · obtain ⟨-, rfl⟩ := hc.unique h1
        obtain ⟨a, z, i', rows, -, -, -, h4, h5⟩ := h1
        obtain ⟨k1, k2, re, k3, k4, k5⟩ := unsafe_row L (List.mem_of_getElem? h4) h5.mem.1 hv
        have hm : re.isMatch q.ua = true := by
          obtain ⟨-, re', h6, h7⟩ | ⟨h6, -⟩ := h5.mem.2
          · rw [k3] at h6; cases h6; exact h7
          · exact absurd hv.1 (by omega)
        have hr := h3.read hv.1 re k3
        unfold ReadOK at hr
        rw [k2] at hr
        obtain ⟨m, hf⟩ := Option.isSome_iff_exists.mp hm
        have hl := (k5 _ _ hf).1
        rw [k4] at hl
        have hs : re.submatch q.ua = m := by rw [Re.submatch, hf]; rfl
        rw [hs] at hr
        refine hr k1 (by decide) (by rw [hl]; decide) ?_
        show m[2]? = none
        simp [hl]
  have hne : g ≠ .model := by rintro rfl; cases hg
  rw [uncached_eq g hne]
  cases g <;> simp_all [outAns, Getter.isC]

/-- C27, exactly when a getter other than GetModel panics without a cache. -/
theorem C27_exact {q : Req} (hl : q.ua.length < 2 ^ 32) {g : Getter} (hg : g ≠ .model) :
    uncached L.tables H g q = none ↔ g.isC = true ∧ ∃ t v, ClientChosen L.tables q.mc q.ua t v ∧ UnsafeRule v := by
  constructor
  · intro h
    rw [uncached_eq g hg] at h
    refine ⟨?_, ?_⟩
    · rcases hc : g.isC with _ | _
      · exact absurd h (outAns_total_dev (shipped_wfdev L _) hl hg hc)
      · rfl
    · refine Classical.byContradiction fun hn => ?_
      exact absurd h (outAns_total (shipped_wfbase L _) hl (chosen_wf L fun t v h1 h2 => hn ⟨t, v, h1, h2⟩) hg)
  · rintro ⟨h1, t, v, h2, h3⟩
    exact C27_panics L h2 h3 h1

/-- No model or template of the shipped tables has more than 49 bytes. -/
theorem shipped_templates : templateMax L.tables ≤ 49 := by
  refine foldr_max_le fun x hx => ?_
  obtain ⟨v, hv, rfl⟩ := List.mem_map.mp hx
  exact model_short L v hv

theorem shipped_bound {u : Bytes} (hl : u.length < 2 ^ 26) : modelBound L.tables u < 2 ^ 32 := by
  have h : modelBound L.tables u ≤ 49 * (u.length + 1) := Nat.mul_le_mul_right _ (shipped_templates L)
  omega

/-- C27, GetModel: without a cache it never panics on user agents of less than 64 MiB. -/
theorem C27_model {q : Req} (hl : q.ua.length < 2 ^ 26) : uncached L.tables H .model q ≠ none :=
  C26_model_uncached (shipped_wfdev L _) (by omega) (shipped_bound L hl)

/-- C27, what holds: in every interleaving of any number of contexts over an honest cache, no call but GetModel panics on a user agent for
which no category selects a rule with one of the eight regexps. -/
theorem C27_partial {s : Sys} (hr : Sys.Reach L.tables H s) {pre post : List Event} {t : Nat} {op : Op} {r : Option (Option Ans)}
    (hlog : s.log = pre ++ .ret t op r :: post) (hop : op ≠ .get .model) (hu : SafeUA L (reqOf pre t).ua)
    (hl : (reqOf pre t).ua.length < 2 ^ 32) : r ≠ none :=
  C26_no_panic hr hlog hop (shipped_wf L hu) hl

/-- A sufficient condition: none of the eight regexps matches the user agent. -/
theorem C27_safe {u : Bytes} (h : ∀ p ∈ unsafePatterns, (L.compile (buf p)).isMatch u = false) : SafeUA L u := by
  rintro rows hr v hv ⟨h0, p, hp, hi⟩
  obtain ⟨-, re, h1, h2⟩ | ⟨h1, -⟩ := hv.mem.2
  · simp only [shipped, List.getElem?_map, hi, Option.map_some] at h1
    cases h1
    rw [h p hp] at h2; cases h2
  · omega

/-- C27, and the getters of the OS and the device do not panic on any user agent. -/
theorem C27_device_partial {s : Sys} (hr : Sys.Reach L.tables H s) {pre post : List Event} {t : Nat} {op : Op} {r : Option (Option Ans)}
    (hlog : s.log = pre ++ .ret t op r :: post) (hop : op ≠ .get .model) (hc : ∀ g, op = .get g → g.isC = false)
    (hl : (reqOf pre t).ua.length < 2 ^ 32) : r ≠ none :=
  C26_no_panic_device hr hlog hop hc (shipped_wfdev L _) hl

end

/-- A safe user agent. -/
theorem demo_safe : SafeUA Regexp.lib (buf (pat! "Mozilla/5.0 Chrome/96.0 Safari/537.36")) := by
  have h : unsafePatterns.all (fun p => !((Regexp.compile (buf p)).isMatch (buf (pat! "Mozilla/5.0 Chrome/96.0 Safari/537.36")))) = true := by decide +kernel
  refine C27_safe _ fun p hp => ?_
  have := List.all_eq_true.mp h p hp
  exact (Bool.not_eq_true' _).mp this

theorem demo_log (T : Tables) (H : Bytes → UInt64) (u : Bytes) (g : Getter) : ∃ pre r,
    (Sys.init.execs T H [(1, .setUserAgent u), (1, .get g)]).log = pre ++ [.ret 1 (.get g) r] ∧ (reqOf pre 1).ua = u := by
  refine ⟨[.call 1 (.setUserAgent u), .ret 1 (.setUserAgent u) (some none), .call 1 (.get g)], _, rfl, rfl⟩

/-- `C27_partial` applies to a call on it. -/
example : ∃ s pre post r, Sys.Reach Regexp.lib.tables fnv1 s ∧ s.log = pre ++ .ret 1 (.get .clientType) r :: post ∧ SafeUA Regexp.lib (reqOf pre 1).ua ∧
    (reqOf pre 1).ua.length < 2 ^ 32 ∧ r ≠ none := by
  obtain ⟨pre, r, h1, h2⟩ := demo_log Regexp.lib.tables fnv1 (buf (pat! "Mozilla/5.0 Chrome/96.0 Safari/537.36")) .clientType
  have hs : SafeUA Regexp.lib (reqOf pre 1).ua := by rw [h2]; exact demo_safe
  have hl : (reqOf pre 1).ua.length < 2 ^ 32 := by rw [h2]; decide +kernel
  exact ⟨_, pre, [], r, reach_execs _ .init, h1, hs, hl, C27_partial Regexp.lib (reach_execs _ .init) h1 (by simp) hs hl⟩

end Verif

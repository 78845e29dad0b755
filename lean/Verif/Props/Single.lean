import Verif.Proofs.Single
import Verif.Props.Batch
import Verif.Props.VersionGetters
/-
C72: what `uaxpl -ua U` writes.
-/
namespace Verif.Cli

section
variable {T : Tables} {H : Bytes → UInt64} {u : Bytes}

/-- The report on user agent `u`, given the texts of the answers. -/
def reportText (u ct b bv e ev dt br m o ov : Bytes) : Bytes :=
  ascii "origin ua: " ++ u ++ ascii "\nclient:\n * type: '" ++ ct ++ ascii "'\n * browser: '" ++ b ++ ascii "'\n * browser version: '" ++ bv ++
  ascii "'\n * engine: '" ++ e ++ ascii "'\n * engine version: '" ++ ev ++ ascii "'\ndevice:\n * type: '" ++ dt ++ ascii "'\n * brand: '" ++ br ++
  ascii "'\n * model: '" ++ m ++ ascii "'\n * os: '" ++ o ++ ascii "'\n * os version: '" ++ ov ++ ascii "'\n"

/-- `r` is the report on `u` with the answers that new contexts give without a cache, each to one question. -/
inductive FullReport (T : Tables) (H : Bytes → UInt64) (u : Bytes) : Bytes → Prop where
  | mk {ct b bv e ev dt br m o ov} (h1 : uncached T H .clientType { ua := u } = some (.clientType ct)) (h2 : uncached T H .browser { ua := u } = some (.text b))
      (h3 : uncached T H .browserVersion { ua := u } = some (.version bv)) (h4 : uncached T H .engine { ua := u } = some (.text e))
      (h5 : uncached T H .engineVersion { ua := u } = some (.version ev)) (h6 : uncached T H .deviceType { ua := u } = some (.deviceType dt))
      (h7 : uncached T H .brand { ua := u } = some (.text br)) (h8 : uncached T H .model { ua := u } = some (.text m))
      (h9 : uncached T H .os { ua := u } = some (.text o)) (h10 : uncached T H .osVersion { ua := u } = some (.version ov)) :
      FullReport T H u (reportText u (clientTypeString ct) b bv.string e ev.string (deviceTypeString dt) br m o ov.string)

theorem FullReport.unique {r r' : Bytes} (h : FullReport T H u r) (h' : FullReport T H u r') : r = r' := by
  cases h with
  | mk h1 h2 h3 h4 h5 h6 h7 h8 h9 h10 =>
    cases h' with
    | mk k1 k2 k3 k4 k5 k6 k7 k8 k9 k10 =>
      rw [h1] at k1; rw [h2] at k2; rw [h3] at k3; rw [h4] at k4; rw [h5] at k5; rw [h6] at k6; rw [h7] at k7; rw [h8] at k8; rw [h9] at k9; rw [h10] at k10
      cases k1; cases k2; cases k3; cases k4; cases k5; cases k6; cases k7; cases k8; cases k9; cases k10
      rfl

theorem ans_of {α : Type} {f : α → Ans} {x : M α} {g : Getter} (h : g.prog T = M.map f x) {q : Req} (hn : uncached T H g q ≠ none) :
    ∃ b, uncached T H g q = some (f b) := by
  rw [uncached_map h] at hn ⊢
  cases hx : (x.null (q.newCtx H)).2 with
  | none => rw [hx] at hn; exact absurd rfl hn
  | some b => exact ⟨b, rfl⟩

theorem uncached_userAgent (q : Req) : uncached T H .userAgent q = some (.text q.ua) := by
  rw [uncached_map (x := getUserAgent) rfl, newCtx_eq]
  rfl

attribute [local irreducible] ascii in
theorem full_lines (hok : ∀ g ∈ shown, uncached T H g { ua := u } ≠ none) : FullReport T H u (linesOf T H u shown) := by
  obtain ⟨ct, h1⟩ := ans_of (T := T) (H := H) (q := { ua := u }) (g := .clientType) rfl (hok _ (by decide))
  obtain ⟨b, h2⟩ := ans_of (T := T) (H := H) (q := { ua := u }) (g := .browser) rfl (hok _ (by decide))
  obtain ⟨bv, h3⟩ := ans_of (T := T) (H := H) (q := { ua := u }) (g := .browserVersion) rfl (hok _ (by decide))
  obtain ⟨e, h4⟩ := ans_of (T := T) (H := H) (q := { ua := u }) (g := .engine) rfl (hok _ (by decide))
  obtain ⟨ev, h5⟩ := ans_of (T := T) (H := H) (q := { ua := u }) (g := .engineVersion) rfl (hok _ (by decide))
  obtain ⟨dt, h6⟩ := ans_of (T := T) (H := H) (q := { ua := u }) (g := .deviceType) rfl (hok _ (by decide))
  obtain ⟨br, h7⟩ := ans_of (T := T) (H := H) (q := { ua := u }) (g := .brand) rfl (hok _ (by decide))
  obtain ⟨m, h8⟩ := ans_of (T := T) (H := H) (q := { ua := u }) (g := .model) rfl (hok _ (by decide))
  obtain ⟨o, h9⟩ := ans_of (T := T) (H := H) (q := { ua := u }) (g := .os) rfl (hok _ (by decide))
  obtain ⟨ov, h10⟩ := ans_of (T := T) (H := H) (q := { ua := u }) (g := .osVersion) rfl (hok _ (by decide))
  have : linesOf T H u shown = reportText u (clientTypeString ct) b bv.string e ev.string (deviceTypeString dt) br m o ov.string := by
    simp only [linesOf, shown, List.flatMap_cons, List.flatMap_nil]
    rw [uncached_userAgent, h1, h2, h3, h4, h5, h6, h7, h8, h9, h10]
    simp only [written, printS, line]
    unfold reportText
    rw [show ascii "\nclient:\n * type: '" = ascii "\n" ++ (ascii "client:\n" ++ ascii " * type: '") by decide +kernel,
      show ascii "'\n * browser: '" = ascii "'\n" ++ ascii " * browser: '" by decide +kernel,
      show ascii "'\n * browser version: '" = ascii "'\n" ++ ascii " * browser version: '" by decide +kernel,
      show ascii "'\n * engine: '" = ascii "'\n" ++ ascii " * engine: '" by decide +kernel,
      show ascii "'\n * engine version: '" = ascii "'\n" ++ ascii " * engine version: '" by decide +kernel,
      show ascii "'\ndevice:\n * type: '" = ascii "'\n" ++ (ascii "device:\n" ++ ascii " * type: '") by decide +kernel,
      show ascii "'\n * brand: '" = ascii "'\n" ++ ascii " * brand: '" by decide +kernel,
      show ascii "'\n * model: '" = ascii "'\n" ++ ascii " * model: '" by decide +kernel,
      show ascii "'\n * os: '" = ascii "'\n" ++ ascii " * os: '" by decide +kernel,
      show ascii "'\n * os version: '" = ascii "'\n" ++ ascii " * os version: '" by decide +kernel]
    simp only [List.append_assoc, List.append_nil]
  rw [this]
  exact .mk h1 h2 h3 h4 h5 h6 h7 h8 h9 h10

/-- C72: when `uaxpl -ua U` returns, the output file is the report with the answers that new contexts give without a cache, although one context is asked all
questions and the cache is in use: in every schedule of the cache's cleaner, whatever the clock says. -/
theorem C72_report (hok : ∀ g ∈ shown, uncached T H g { ua := u } ≠ none) (hsize : 11 * growth T u + modelBound T u < 2 ^ 32)
    {s : Single} (hr : Single.Reach T H u s) (hf : s.Returned) : FullReport T H u s.out := by
  have I := single_inv hok hsize hr
  obtain ⟨-, h1, c, h2⟩ := hf
  have hph := I.ph
  rw [h1, h2] at hph
  generalize hout : s.out = out at hph ⊢
  generalize hnil : ([] : List Op) = todo at hph
  cases hph with
  | start => cases hnil
  | @asking c gs gs' hg hs =>
    have : gs' = [] := List.map_eq_nil_iff.mp hnil.symm
    rw [this, List.append_nil] at hg
    rw [← hg]
    exact full_lines hok
  | waiting hg hs hth => cases hth

/-- C72: it does not panic. -/
theorem C72_no_panic (hok : ∀ g ∈ shown, uncached T H g { ua := u } ≠ none) (hsize : 11 * growth T u + modelBound T u < 2 ^ 32)
    {s : Single} (hr : Single.Reach T H u s) : s.panicked = false := (single_inv hok hsize hr).np

/-- C72: what is in the file at any time is a beginning of the report. -/
theorem C72_prefix (hok : ∀ g ∈ shown, uncached T H g { ua := u } ≠ none) (hsize : 11 * growth T u + modelBound T u < 2 ^ 32)
    {s : Single} (hr : Single.Reach T H u s) : ∃ r, FullReport T H u r ∧ s.out <+: r := by
  have I := single_inv hok hsize hr
  refine ⟨_, full_lines hok, ?_⟩
  have key : ∀ gs gs' : List Getter, shown = gs ++ gs' → linesOf T H u gs <+: linesOf T H u shown := by
    intro gs gs' h
    rw [h]
    exact ⟨linesOf T H u gs', by simp [linesOf]⟩
  have hph := I.ph
  generalize s.out = out at hph ⊢
  generalize s.sys.threads 0 = th at hph
  generalize s.todo = todo at hph
  cases hph with
  | start => exact List.nil_prefix
  | setting => exact List.nil_prefix
  | asking hg => exact key _ _ hg
  | waiting hg => exact key _ _ hg

/-- C72: as long as it has neither returned nor crashed, it can go on, and not only by a step of the cache's cleaner. -/
theorem C72_progress {s : Single} (hr : Single.Reach T H u s) (hn : ¬ s.Returned) (hp : s.panicked = false) :
    ∃ s', Single.Step T H s s' ∧ ¬ s.CleanOnly s' := by
  have other : ∀ {s'}, Single.Step T H s s' → ¬ (s'.panicked = s.panicked ∧ s'.sys.threads = s.sys.threads ∧ s'.sys.log = s.sys.log) →
      ∃ s', Single.Step T H s s' ∧ ¬ s.CleanOnly s' := by
    intro s' st h
    refine ⟨s', st, ?_⟩
    rintro ⟨now, rfl⟩
    exact h ⟨rfl, rfl, rfl⟩
  cases hth : s.sys.threads 0 with
  | idle c =>
    cases htd : s.todo with
    | nil => exact absurd ⟨hp, htd, c, hth⟩ hn
    | cons op rest => exact other (.call hp htd hth) fun h => absurd (congrArg List.length h.2.2) (by simp)
  | busy op p =>
    cases p with
    | ret x =>
      obtain ⟨c, x⟩ := x
      cases x with
      | none => exact other (.panic hp hth) fun h => by have := h.1; rw [hp] at this; cases this
      | some a => exact other (.ret hp hth) fun h => absurd (congrArg List.length h.2.2) (by simp)
    | get k f =>
      cases hg : (s.sys.cache.get H k 0).2 with
      | none => exact other (.sys hp (.miss 0 hth hg) rfl) fun h => moved (single_sys hr) rfl (by rw [hth]; exact cost_get _) h.2.1
      | some ptr => exact other (.sys hp (.hit 0 hth hg) rfl) fun h => moved (single_sys hr) rfl (by rw [hth]; exact cost_hit) h.2.1
    | set k e p =>
      cases hg : s.sys.cache.step H (.set k s.sys.next e 0) with
      | none => exact other (.sys hp (.crash 0 hth hg) rfl) fun h => moved (single_sys hr) rfl (by rw [hth]; exact cost_crash) h.2.1
      | some c => exact other (.sys hp (.set 0 hth hg) rfl) fun h => moved (single_sys hr) rfl (by rw [hth]; exact cost_set) h.2.1
  | reading op k p f => exact other (.sys hp (.read hth) rfl) fun h => moved (single_sys hr) rfl (by rw [hth]; exact cost_read _) h.2.1
  | crashed => exact absurd hth (C64_no_panic (single_sys hr) _)

/-- A run of the program. -/
inductive Single.Run (T : Tables) (H : Bytes → UInt64) : List Single → Prop where
  | one (s : Single) : Single.Run T H [s]
  | cons {s s' : Single} {l : List Single} (st : Single.Step T H s s') (h : Single.Run T H (s' :: l)) : Single.Run T H (s :: s' :: l)

open Classical in
/-- The steps that are not the cleaner's. -/
noncomputable def Single.work : List Single → Nat
  | s :: s' :: l => (if s.CleanOnly s' then 0 else 1) + Single.work (s' :: l)
  | _ => 0

theorem dead_end {s s' : Single} (st : Single.Step T H s s') : s.panicked = false := by
  cases st <;> assumption

theorem scost_clean {s s' : Single} (h : s.CleanOnly s') {n : Nat} (hc : SCost s n) : SCost s' n := by
  obtain ⟨now, rfl⟩ := h
  exact hc

theorem work_le : ∀ (l : List Single) (s : Single) (n : Nat), Single.Reach T H u s → SCost s n → Single.Run T H (s :: l) → Single.work (s :: l) ≤ n + 1
  | [], s, n, _, _, _ => Nat.zero_le _
  | s' :: l, s, n, hr, hn, hrun => by
    cases hrun with
    | cons st h =>
      have hr' := Single.Reach.step hr st
      unfold Single.work
      rcases single_down hr st with hc | hp | hd
      · rw [if_pos hc]
        have := work_le l s' n hr' (scost_clean hc hn) h
        omega
      · cases h with
        | one => unfold Single.work; split <;> omega
        | cons st' _ => rw [dead_end st'] at hp; cases hp
      · obtain ⟨n', hlt, hn'⟩ := hd n hn
        have := work_le l s' n' hr' hn' h
        split <;> omega

/-- C72, termination: no run has more than 121 steps, not counting those of the cache's cleaner. With `C72_progress`: the tool returns, or crashes, as soon
as the scheduler lets it. -/
theorem C72_terminates {l : List Single} (h : Single.Run T H (.start u :: l)) : Single.work (.start u :: l) ≤ 121 :=
  work_le l _ 120 .init ⟨0, .idle, rfl⟩ h

end

/-! ### A run -/

section
variable (T : Tables) (H : Bytes → UInt64)

/-- A scheduler in which the cleaner never runs. Only used to exhibit concrete runs. -/
def Single.tick (s : Single) : Single :=
  if s.panicked = true then s else
  match s.sys.threads 0 with
  | .idle c =>
    match s.todo with
    | op :: rest => { s with
        todo := rest,
        sys := { s.sys with threads := s.sys.put 0 (.busy op (op.prog T H c)), log := s.sys.log ++ [.call 0 op] } }
    | [] => s
  | .busy op (.ret (c, some a)) => { s with
      out := s.out ++ written op a,
      sys := { s.sys with threads := s.sys.put 0 (.idle c), log := s.sys.log ++ [.ret 0 op (some a)] } }
  | .busy _ (.ret (_, none)) => { s with panicked := true }
  | .busy op (.get k f) =>
    match (s.sys.cache.get H k 0).2 with
    | none => { s with sys := { s.sys with threads := s.sys.put 0 (.busy op (f .miss)), cache := (s.sys.cache.get H k 0).1 } }
    | some p => { s with sys := { s.sys with threads := s.sys.put 0 (.reading op k p f), cache := (s.sys.cache.get H k 0).1 } }
  | .busy op (.set k e p) =>
    match s.sys.cache.step H (.set k s.sys.next e 0) with
    | some c => { s with sys := { s.sys with threads := s.sys.put 0 (.busy op p), cache := c, next := s.sys.next + 1 } }
    | none => s
  | .reading op _ p f => { s with sys := { s.sys with threads := s.sys.put 0 (.busy op (f (.hit (s.sys.cache.heap p)))) } }
  | .crashed => s

/-- Several steps. -/
def Single.ticks : Nat → Single → Single
  | 0, s => s
  | n + 1, s => Single.ticks n (s.tick T H)

end

theorem tick_reach {T : Tables} {H : Bytes → UInt64} {u : Bytes} {s : Single} (h : Single.Reach T H u s) : Single.Reach T H u (s.tick T H) := by
  unfold Single.tick
  split
  · exact h
  · rename_i hp
    have hp : s.panicked = false := by simpa using hp
    split
    · rename_i c ht
      split
      · rename_i op rest ho
        exact h.step (.call hp ho ht)
      · exact h
    · rename_i op c a ht
      exact h.step (.ret hp ht)
    · rename_i op c ht
      exact h.step (.panic hp ht)
    · rename_i op k f ht
      split
      · rename_i hg
        exact h.step (.sys hp (.miss 0 ht hg) rfl)
      · rename_i p hg
        exact h.step (.sys hp (.hit 0 ht hg) rfl)
    · rename_i op k e p ht
      split
      · rename_i c hg
        exact h.step (.sys hp (.set 0 ht hg) rfl)
      · exact h
    · rename_i op k p f ht
      exact h.step (.sys hp (.read ht) rfl)
    · exact h

theorem ticks_reach {T : Tables} {H : Bytes → UInt64} {u : Bytes} : ∀ (n : Nat) {s : Single}, Single.Reach T H u s → Single.Reach T H u (s.ticks T H n)
  | 0, _, h => h
  | n + 1, _, h => ticks_reach n (tick_reach h)

/-- The tool on the demo phone, until it returns. -/
def Demo.single : Single := (Single.start Demo.phone).ticks Demo.tables fnv1 60

theorem Demo.single_returned : Demo.single.Returned := by
  refine ⟨by decide +kernel, by decide +kernel, ?_⟩
  have : (match Demo.single.sys.threads 0 with | .idle _ => true | _ => false) = true := by decide +kernel
  split at this
  · rename_i c h; exact ⟨c, h⟩
  · cases this

/-- C72_report says what it wrote. -/
theorem Demo.single_report : FullReport Demo.tables fnv1 Demo.phone Demo.single.out :=
  C72_report (by decide +kernel) (by decide +kernel) (ticks_reach 60 .init) Demo.single_returned

example : Demo.single.out = reportText Demo.phone (ascii "browser") (ascii "Chrome") (ascii "96.0.4.0") (ascii "Blink") (ascii "96.0.4.0") (ascii "smartphone")
    (ascii "Google") (ascii "Pixel 4") (ascii "Android") (ascii "10.0.0.0") := by decide +kernel

/-- C72_progress, C72_prefix and C72_no_panic apply to every state of that run but the last. -/
example : ∃ s', Single.Step Demo.tables fnv1 (.start Demo.phone) s' ∧ ¬ (Single.start Demo.phone).CleanOnly s' :=
  C72_progress .init (fun h => absurd h.2.1 (by decide)) rfl

end Verif.Cli

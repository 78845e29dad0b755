import Verif.Proofs.BatchTerm
import Verif.Proofs.BatchExec
import Verif.Props.Cli
import Verif.Props.Context
/-
C66: the batch checker, with the library and its built-in cache, reports what single new contexts without a cache would answer, in every schedule.
-/
namespace Verif.Cli

section
variable {T : Tables} {H : Bytes → UInt64} {lower : Bytes → Bytes} {rows : List Row} {threads : Nat}

/-- What new contexts without a cache answer for a user agent, as text. -/
structure Truth (T : Tables) (H : Bytes → UInt64) (u : Bytes) (g : Got) : Prop where
  clientType : ∃ t, uncached T H .clientType { ua := u } = some (.clientType t) ∧ g.clientType = clientTypeString t
  browser : uncached T H .browser { ua := u } = some (.text g.browser)
  browserVersion : uncached T H .browserVersionString { ua := u } = some (.text g.browserVersion)
  engine : uncached T H .engine { ua := u } = some (.text g.engine)
  engineVersion : uncached T H .engineVersionString { ua := u } = some (.text g.engineVersion)
  deviceType : ∃ t, uncached T H .deviceType { ua := u } = some (.deviceType t) ∧ g.deviceType = deviceTypeString t
  brand : uncached T H .brand { ua := u } = some (.text g.brand)
  model : uncached T H .model { ua := u } = some (.text g.model)
  os : uncached T H .os { ua := u } = some (.text g.os)
  osVersion : uncached T H .osVersionString { ua := u } = some (.text g.osVersion)

theorem uncached_map {α : Type} {g : Getter} {f : α → Ans} {x : M α} (h : g.prog T = M.map f x) (q : Req) :
    uncached T H g q = ((x.null (q.newCtx H)).2).map f := by
  unfold uncached
  rw [h]
  exact congrArg Prod.snd (null_map f x _)

/-- Getters that give texts. -/
theorem text_of {x : M Bytes} {g : Getter} (h : g.prog T = M.map .text x) {q : Req} (hn : uncached T H g q ≠ none) : ∃ b, uncached T H g q = some (.text b) := by
  rw [uncached_map h] at hn ⊢
  cases hx : (x.null (q.newCtx H)).2 with
  | none => rw [hx] at hn; exact absurd rfl hn
  | some b => exact ⟨b, rfl⟩

theorem truth_exists {u : Bytes} (hok : ∀ g ∈ asked, uncached T H g { ua := u } ≠ none) : ∃ g, Truth T H u g := by
  have h1 : ∃ t, uncached T H .clientType { ua := u } = some (.clientType t) := by
    have hn := hok .clientType (by decide)
    have h : Getter.clientType.prog T = M.map .clientType (getClientType T) := rfl
    rw [uncached_map h] at hn ⊢
    cases hx : ((getClientType T).null (Req.newCtx H { ua := u })).2 with
    | none => rw [hx] at hn; exact absurd rfl hn
    | some b => exact ⟨b, rfl⟩
  have h2 : ∃ t, uncached T H .deviceType { ua := u } = some (.deviceType t) := by
    have hn := hok .deviceType (by decide)
    have h : Getter.deviceType.prog T = M.map .deviceType (getDeviceType T) := rfl
    rw [uncached_map h] at hn ⊢
    cases hx : ((getDeviceType T).null (Req.newCtx H { ua := u })).2 with
    | none => rw [hx] at hn; exact absurd rfl hn
    | some b => exact ⟨b, rfl⟩
  obtain ⟨t1, h1⟩ := h1
  obtain ⟨t2, h2⟩ := h2
  obtain ⟨b1, e1⟩ := text_of (T := T) (H := H) (q := { ua := u }) (g := .browser) rfl (hok _ (by decide))
  obtain ⟨b2, e2⟩ := text_of (T := T) (H := H) (q := { ua := u }) (g := .browserVersionString) rfl (hok _ (by decide))
  obtain ⟨b3, e3⟩ := text_of (T := T) (H := H) (q := { ua := u }) (g := .engine) rfl (hok _ (by decide))
  obtain ⟨b4, e4⟩ := text_of (T := T) (H := H) (q := { ua := u }) (g := .engineVersionString) rfl (hok _ (by decide))
  obtain ⟨b5, e5⟩ := text_of (T := T) (H := H) (q := { ua := u }) (g := .brand) rfl (hok _ (by decide))
  obtain ⟨b6, e6⟩ := text_of (T := T) (H := H) (q := { ua := u }) (g := .model) rfl (hok _ (by decide))
  obtain ⟨b7, e7⟩ := text_of (T := T) (H := H) (q := { ua := u }) (g := .os) rfl (hok _ (by decide))
  obtain ⟨b8, e8⟩ := text_of (T := T) (H := H) (q := { ua := u }) (g := .osVersionString) rfl (hok _ (by decide))
  exact ⟨⟨clientTypeString t1, b1, b2, b3, b4, deviceTypeString t2, b5, b6, b7, b8⟩, ⟨t1, h1, rfl⟩, e1, e2, e3, e4, ⟨t2, h2, rfl⟩, e5, e6, e7, e8⟩

/-- Good answers are the truth, up to the model. -/
theorem good_truth {r : Row} {as : List Ans} {g g0 : Got} (ht : Truth T H r.ua g0) (hg : gotOf as = some g) (ha : AllGood (GoodAns T H rows) r asked as) :
    g = { g0 with model := g.model } ∧ (Once rows r.ua → g = g0) := by
  unfold gotOf at hg
  split at hg
  case h_2 => cases hg
  case h_1 a b c d e f h m i j =>
  simp only [Option.some.injEq] at hg
  subst hg
  obtain ⟨k1, k2, k3, k4, k5, k6, k7, k8, k9, k10, -⟩ := ha
  have k1 := k1 (.inl (by decide))
  have k2 := k2 (.inl (by decide))
  have k3 := k3 (.inl (by decide))
  have k4 := k4 (.inl (by decide))
  have k5 := k5 (.inl (by decide))
  have k6 := k6 (.inl (by decide))
  have k7 := k7 (.inl (by decide))
  have k9 := k9 (.inl (by decide))
  have k10 := k10 (.inl (by decide))
  obtain ⟨t1, x1, y1⟩ := ht.clientType
  obtain ⟨t2, x2, y2⟩ := ht.deviceType
  rw [x1] at k1; rw [ht.browser] at k2; rw [ht.browserVersion] at k3; rw [ht.engine] at k4; rw [ht.engineVersion] at k5
  rw [x2] at k6; rw [ht.brand] at k7; rw [ht.os] at k9; rw [ht.osVersion] at k10
  cases k1; cases k2; cases k3; cases k4; cases k5; cases k6; cases k7; cases k9; cases k10
  have hmain : ∀ m', (⟨print (.clientType t1), print (.text g0.browser), print (.text g0.browserVersion), print (.text g0.engine), print (.text g0.engineVersion),
      print (.deviceType t2), print (.text g0.brand), m', print (.text g0.os), print (.text g0.osVersion)⟩ : Got) = { g0 with model := m' } := by
    intro m'
    cases g0
    simp only [print] at *
    simp only [y1, y2]
  refine ⟨hmain _, fun ho => ?_⟩
  have k8 := k8 (.inr ho)
  rw [ht.model] at k8
  cases k8
  exact hmain _

/-- C66, answers: with the built-in cache and whatever the schedule, the answers compared for a row are those of new contexts without a cache, except
that the model may differ if the user agent occurs in several rows. Hypotheses: the user agents of the file have different hashes, no getter
panics on them without a cache, no buffer reaches 4 GiB. -/
theorem C66_answers {s : Batch} (hr : Batch.Reach T H lower rows threads s)
    (hH : ∀ u u', InRows rows u → InRows rows u' → H u = H u' → u = u') (hok : ∀ r ∈ rows, ∀ g ∈ asked, uncached T H g { ua := r.ua } ≠ none)
    (hsize : ∀ r ∈ rows, 10 * growth T r.ua + modelBound T r.ua < 2 ^ 32) {r : Row} {g : Got} (hx : (r, g) ∈ s.cli.handled) :
    ∃ g0, Truth T H r.ua g0 ∧ g = { g0 with model := g.model } ∧ (Once rows r.ua → g = g0) := by
  have hx : (r, g) ∈ s.cli.results := List.mem_append_left _ hx
  have hrow := results_mem (cinv (batch_cli hr)) hx
  obtain ⟨g0, h0⟩ := truth_exists (T := T) (H := H) (hok r hrow)
  obtain ⟨as, h1, h2⟩ := (batch_inv hr hH hok hsize).res _ hx
  exact ⟨g0, h0, good_truth h0 h1 h2⟩

/-- C66, no panic: if moreover no user agent occurs in two rows, the tool does not crash. -/
theorem C66_no_panic {s : Batch} (hr : Batch.Reach T H lower rows threads s)
    (hH : ∀ u u', InRows rows u → InRows rows u' → H u = H u' → u = u') (hok : ∀ r ∈ rows, ∀ g ∈ asked, uncached T H g { ua := r.ua } ≠ none)
    (hsize : ∀ r ∈ rows, 10 * growth T r.ua + modelBound T r.ua < 2 ^ 32) (ho : ∀ r ∈ rows, Once rows r.ua) : s.panicked = false := by
  cases h : s.panicked with
  | false => rfl
  | true =>
    obtain ⟨r, h1, h2⟩ := (batch_inv hr hH hok hsize).np h
    exact absurd (ho r h1) h2

/-- The report does not depend on the model if the row has no model to compare with. -/
theorem report_model {r : Row} {g : Got} (m : Bytes) (h : r.model = []) : report lower r { g with model := m } = report lower r g := by
  have : differing lower r { g with model := m } = differing lower r g := by
    unfold differing columns pairs
    simp only [List.zip_cons_cons, List.filter_cons, h, ne_eq, not_true_eq_false, false_and, decide_false, Bool.false_eq_true, if_false]
  unfold report
  rw [this]

/-- C66, partial: the report consists, in some order, of the texts of the rows as they are with the answers of new contexts without a cache, provided
that rows with a model to compare with have a user agent of their own. So all runs give the same report up to the order of the rows. Missing
because false (`C66_refuted`): repeated user agents with models. -/
theorem C66_report_partial {s : Batch} (hr : Batch.Reach T H lower rows threads s)
    (hH : ∀ u u', InRows rows u → InRows rows u' → H u = H u' → u = u') (hok : ∀ r ∈ rows, ∀ g ∈ asked, uncached T H g { ua := r.ua } ≠ none)
    (hsize : ∀ r ∈ rows, 10 * growth T r.ua + modelBound T r.ua < 2 ^ 32) (hcol : ∀ r ∈ rows, r.model ≠ [] → Once rows r.ua)
    {truth : Bytes → Got} (ht : ∀ r ∈ rows, Truth T H r.ua (truth r.ua)) (hret : s.cli.Returned) :
    ∃ l : List Row, l.Perm rows ∧ s.cli.out.flatten = l.flatMap fun r => report lower r (truth r.ua) := by
  obtain ⟨hp, -, l, h1, h2⟩ := C48_exactly_once (batch_cli hr) hret
  refine ⟨l.map (·.1), (h1.map _).trans hp, ?_⟩
  have h3 : ∀ x ∈ l, report lower x.1 x.2 = report lower x.1 (truth x.1.ua) := by
    intro x hx
    have hx' : x ∈ s.cli.results := List.mem_append_left _ (h1.mem_iff.mp hx)
    have hrow := results_mem (cinv (batch_cli hr)) hx'
    obtain ⟨as, h4, h5⟩ := (batch_inv hr hH hok hsize).res _ hx'
    obtain ⟨h6, h7⟩ := good_truth (ht _ hrow) h4 h5
    by_cases hm : x.1.model = []
    · rw [h6]; exact report_model _ hm
    · rw [h7 (hcol _ hrow hm)]
  rw [h2]
  clear h1 h2 hp
  induction l with
  | nil => rfl
  | cons x l ih =>
    rw [List.flatMap_cons, List.flatten_append, ih fun y hy => h3 y (List.mem_cons_of_mem _ hy), List.map_cons, List.flatMap_cons, block_report, h3 x (List.mem_cons_self ..)]

/-- C66, determinism: two runs that return, with whatever schedules and numbers of threads, report the same texts up to the order of the rows. -/
theorem C66_same_report_partial {threads' : Nat} {s s' : Batch} (hr : Batch.Reach T H lower rows threads s) (hr' : Batch.Reach T H lower rows threads' s')
    (hH : ∀ u u', InRows rows u → InRows rows u' → H u = H u' → u = u') (hok : ∀ r ∈ rows, ∀ g ∈ asked, uncached T H g { ua := r.ua } ≠ none)
    (hsize : ∀ r ∈ rows, 10 * growth T r.ua + modelBound T r.ua < 2 ^ 32) (hcol : ∀ r ∈ rows, r.model ≠ [] → Once rows r.ua)
    (hret : s.cli.Returned) (hret' : s'.cli.Returned) :
    ∃ l l' : List Bytes, s.cli.out.flatten = l.flatten ∧ s'.cli.out.flatten = l'.flatten ∧ l.Perm l' := by
  classical
  have hex : ∀ u, ∃ g, (∃ r ∈ rows, r.ua = u) → Truth T H u g := by
    intro u
    by_cases h : ∃ r ∈ rows, r.ua = u
    · obtain ⟨r, hm, rfl⟩ := h
      obtain ⟨g, hg⟩ := truth_exists (T := T) (H := H) (hok r hm)
      exact ⟨g, fun _ => hg⟩
    · exact ⟨⟨[], [], [], [], [], [], [], [], [], []⟩, fun h' => absurd h' h⟩
  obtain ⟨truth, htr⟩ : ∃ truth : Bytes → Got, ∀ u, (∃ r ∈ rows, r.ua = u) → Truth T H u (truth u) := ⟨fun u => (hex u).choose, fun u => (hex u).choose_spec⟩
  have ht : ∀ r ∈ rows, Truth T H r.ua (truth r.ua) := fun r hm => htr r.ua ⟨r, hm, rfl⟩
  obtain ⟨l, h1, h2⟩ := C66_report_partial hr hH hok hsize hcol ht hret
  obtain ⟨l', h3, h4⟩ := C66_report_partial hr' hH hok hsize hcol ht hret'
  exact ⟨_, _, by rw [h2, List.flatMap_def], by rw [h4, List.flatMap_def], (h1.trans h3.symm).map _⟩

theorem le_sum {l : List Nat} {n : Nat} (h : n ∈ l) : n ≤ l.sum := by
  induction l with
  | nil => cases h
  | cons x l ih =>
    rw [List.sum_cons]
    rcases List.mem_cons.mp h with h | h
    · omega
    · have := ih h; omega

/-- C66, no deadlock: with at least one thread, a run that has not returned and has not crashed can go on, and not only by a step of the cache's cleaner,
which is always possible. -/
theorem C66_no_deadlock (hth : 1 ≤ threads) {s : Batch} (hr : Batch.Reach T H lower rows threads s) (hn : ¬ s.cli.Returned) (hp : s.panicked = false) :
    ∃ s', Batch.Step T H lower rows threads s s' ∧ ¬ s.CleanOnly s' := by
  have I := inv_true hr
  have other : ∀ {s'}, Batch.Step T H lower rows threads s s' → ¬ (s'.cli = s.cli ∧ s'.jobs = s.jobs ∧ s'.panicked = s.panicked ∧ s'.sys.threads = s.sys.threads ∧
      s'.sys.log = s.sys.log) → ∃ s', Batch.Step T H lower rows threads s s' ∧ ¬ s.CleanOnly s' := by
    intro s' st h
    refine ⟨s', st, ?_⟩
    rintro ⟨now, rfl⟩
    exact h ⟨rfl, rfl, rfl, rfl, rfl⟩
  have put : ∀ {i : Nat} {j : Option Job}, s.put i j = s.jobs → j = s.jobs i := by
    intro i j h
    rw [← congrFun h i, Batch.put, if_pos rfl]
  have C := cinv (batch_cli hr)
  by_cases hw : ∃ (i : Nat) (r : Row), s.cli.workers[i]? = some (.work r)
  · obtain ⟨i, r, hw⟩ := hw
    cases hj : s.jobs i with
    | none =>
      obtain ⟨t, ht⟩ : ∃ t, ∀ k job, s.jobs k = some job → job.ctx ≠ t := by
        let L := (List.range s.cli.workers.length).filterMap fun k => (s.jobs k).map (·.ctx)
        refine ⟨L.sum + 1, fun k job hk he => ?_⟩
        obtain ⟨r', hw', -⟩ := I.job k job hk
        have hlt : k < s.cli.workers.length := by
          rcases Nat.lt_or_ge k s.cli.workers.length with h | h
          · exact h
          · rw [List.getElem?_eq_none h] at hw'; cases hw'
        have hm : job.ctx ∈ L := List.mem_filterMap.mpr ⟨k, List.mem_range.mpr hlt, by rw [hk]; rfl⟩
        have := le_sum hm
        omega
      obtain ⟨c, hc⟩ := I.free t ht
      exact other (.acquire hp hw hj hc ht) fun h => by have := put h.2.1; rw [hj] at this; cases this
    | some job =>
      obtain ⟨r', hw', hph⟩ := I.job i job hj
      rw [hw] at hw'
      cases hw'
      cases hth' : s.sys.threads job.ctx with
      | idle c =>
        cases htd : job.todo with
        | cons op rest => exact other (.call hp hj htd hth') fun h => absurd (congrArg List.length h.2.2.2.2) (by simp)
        | nil =>
          have hall : AllGood (fun _ _ _ => True) r asked job.got := by
            rw [hth', htd] at hph
            generalize job.got = got at hph
            generalize hnil : ([] : List Op) = todo at hph
            cases hph with
            | start => cases hnil
            | asking hg hs ha => simp at hnil
            | waiting hg hs ha hth => cases hth
            | finished ha => exact ha
          obtain ⟨g, hg⟩ : ∃ g, gotOf job.got = some g := by
            generalize job.got = got at hall
            match got, hall with
            | [_, _, _, _, _, _, _, _, _, _], _ => exact ⟨_, rfl⟩
          have hlt : i < s.cli.workers.length := by
            rcases Nat.lt_or_ge i s.cli.workers.length with h | h
            · exact h
            · rw [List.getElem?_eq_none h] at hw; cases hw
          have hsp : s.cli.workers = s.cli.workers.take i ++ .work r :: s.cli.workers.drop (i + 1) := by
            rw [List.getElem?_eq_getElem hlt] at hw
            rw [← Option.some.inj hw]
            simp
          have hi : (s.cli.workers.take i).length = i := by simp; omega
          exact other (.compare hp hsp (by rw [hi]; exact hj) htd hth' hg) fun h => by have := put h.2.1; rw [hi, hj] at this; cases this
      | busy op p =>
        cases p with
        | ret x =>
          obtain ⟨c, x⟩ := x
          cases x with
          | none => exact other (.panic hp hj hth') fun h => by have := h.2.2.1; rw [hp] at this; cases this
          | some a => exact other (.ret hp hj hth') fun h => absurd (congrArg List.length h.2.2.2.2) (by simp)
        | get k f =>
          cases hg : (s.sys.cache.get H k 0).2 with
          | none => exact other (.sys hp (.miss 0 hth' hg) rfl) fun h => moved (batch_sys hr) rfl (by rw [hth']; exact cost_get _) h.2.2.2.1
          | some ptr => exact other (.sys hp (.hit 0 hth' hg) rfl) fun h => moved (batch_sys hr) rfl (by rw [hth']; exact cost_hit) h.2.2.2.1
        | set k e p =>
          cases hg : s.sys.cache.step H (.set k s.sys.next e 0) with
          | none => exact other (.sys hp (.crash 0 hth' hg) rfl) fun h => moved (batch_sys hr) rfl (by rw [hth']; exact cost_crash) h.2.2.2.1
          | some c => exact other (.sys hp (.set 0 hth' hg) rfl) fun h => moved (batch_sys hr) rfl (by rw [hth']; exact cost_set) h.2.2.2.1
      | reading op k p f => exact other (.sys hp (.read hth') rfl) fun h => moved (batch_sys hr) rfl (by rw [hth']; exact cost_read _) h.2.2.2.1
      | crashed => exact absurd hth' (C64_no_panic (batch_sys hr) _)
  · obtain ⟨c', st⟩ := C48_no_deadlock hth (batch_cli hr) hn
    exact ⟨_, .cli hp st fun i r h => absurd ⟨i, r, h⟩ hw, down_not_clean hr (down_cli st)⟩

/-- C66, termination: in an infinite run, from some point on nothing but the cleaner of the cache runs. With `C66_no_deadlock`: the tool returns, or
crashes, as soon as the scheduler lets it. -/
theorem C66_terminates (f : Nat → Batch) (h0 : Batch.Reach T H lower rows threads (f 0)) (h : ∀ n, Batch.Step T H lower rows threads (f n) (f (n + 1))) :
    ∃ N, ∀ n, N ≤ n → (f n).CleanOnly (f (n + 1)) := by
  classical
  have hr : ∀ n, Batch.Reach T H lower rows threads (f n) := by
    intro n
    induction n with
    | zero => exact h0
    | succ n ih => exact .step ih (h n)
  have hp : ∀ n, (f n).panicked = false := fun n => step_alive (h n)
  have hd : ∀ n, (f n).CleanOnly (f (n + 1)) ∨ Down rows threads (f n) (f (n + 1)) := by
    intro n
    rcases down_step (hr n) (h n) with h1 | h1 | h1
    · exact .inl h1
    · rw [hp] at h1; cases h1
    · exact .inr h1
  have key : ∀ w m n, (f n).cli.weight rows = w → Fuel threads (f n) m → ∃ N, ∀ k, N ≤ k → (f k).CleanOnly (f (k + 1)) := by
    intro w
    induction w using Nat.strongRecOn with
    | ind w ihw =>
      intro m
      induction m using Nat.strongRecOn with
      | ind m ihm =>
        intro n hw hm
        refine Classical.byContradiction fun hno => ?_
        have hall : ∀ j, ((∀ i, i < j → (f (n + i)).CleanOnly (f (n + i + 1))) ∧ (f (n + j)).cli.weight rows = w ∧ Fuel threads (f (n + j)) m) := by
          intro j
          induction j with
          | zero => exact ⟨fun i hi => absurd hi (by omega), hw, hm⟩
          | succ j ih =>
            obtain ⟨h1, h2, h3⟩ := ih
            rcases hd (n + j) with hc | hdn
            · refine ⟨fun i hi => ?_, ?_, ?_⟩
              · rcases Nat.lt_or_ge i j with hlt | hge
                · exact h1 i hlt
                · have : i = j := by omega
                  subst this; exact hc
              · rw [← h2, ← weight_clean hc]; rfl
              · exact (fuel_clean hc).mp h3
            · exfalso
              rcases hdn with hlt | ⟨heq, hf⟩
              · obtain ⟨m', hm'⟩ := fuel_exists (hr (n + j + 1))
                exact hno (ihw _ (by omega) m' (n + j + 1) rfl hm')
              · obtain ⟨m', hlt, hm'⟩ := hf m h3
                exact hno (ihm m' hlt (n + j + 1) (by omega) hm')
        refine hno ⟨n, fun k hk => ?_⟩
        have := (hall (k - n + 1)).1 (k - n) (by omega)
        rw [show n + (k - n) = k by omega] at this
        exact this
  obtain ⟨m, hm⟩ := fuel_exists (hr 0)
  exact key _ m 0 rfl hm

end

/-- All user agents at hand. -/
theorem hash_of_list {H : Bytes → UInt64} {rows : List Row}
    (h : ∀ u ∈ rows.map (·.ua), ∀ u' ∈ rows.map (·.ua), H u = H u' → u = u') (u u' : Bytes)
    (hu : InRows rows u) (hu' : InRows rows u') : H u = H u' → u = u' := by
  have k : ∀ {v}, InRows rows v → v ∈ rows.map (·.ua) := by
    intro v hv
    obtain ⟨r, hr, rfl⟩ := hv
    exact List.mem_map_of_mem hr
  exact h u (k hu) u' (k hu')

def Worker.isDone : Worker → Bool
  | .done => true
  | _ => false

theorem returned_of {s : CState} (h : (s.closed && s.workers.all Worker.isDone) = true) : s.Returned := by
  rw [Bool.and_eq_true, List.all_eq_true] at h
  refine ⟨h.1, fun w hw => ?_⟩
  have := h.2 w hw
  cases w <;> first | rfl | cases this

/-! ### Repeated user agents -/

/-- The full claim: as `C66_report_partial`, for all files. -/
def C66Claim (T : Tables) (H : Bytes → UInt64) (lower : Bytes → Bytes) : Prop :=
  ∀ (rows : List Row) (threads : Nat) (s : Batch), Batch.Reach T H lower rows threads s →
    (∀ u u', InRows rows u → InRows rows u' → H u = H u' → u = u') → (∀ r ∈ rows, ∀ g ∈ asked, uncached T H g { ua := r.ua } ≠ none) →
    (∀ r ∈ rows, 10 * growth T r.ua + modelBound T r.ua < 2 ^ 32) →
    ∀ truth : Bytes → Got, (∀ r ∈ rows, Truth T H r.ua (truth r.ua)) → s.cli.Returned →
      ∃ l : List Row, l.Perm rows ∧ s.cli.out.flatten = l.flatMap fun r => report lower r (truth r.ua)

/-- The same row twice. -/
def Demo.twice : List Row := [{ ua := Demo.phone, model := ascii "Pixel 4" }, { ua := Demo.phone, model := ascii "Pixel 4" }]

/-- The tool with one thread on that file. -/
def Demo.twiceRun : Batch := (Batch.start 1).ticks Demo.tables fnv1 id Demo.twice 90

theorem Demo.twice_reach : Batch.Reach Demo.tables fnv1 id Demo.twice 1 Demo.twiceRun := (lone_ticks 90 lone_start).1

/-- What new contexts answer for the demo user agents. -/
def Demo.phoneGot (v : String) : Got where
  clientType := ascii "browser"
  browser := ascii "Chrome"
  browserVersion := ascii "96.0.4"
  engine := ascii "Blink"
  engineVersion := ascii "96.0.4"
  deviceType := ascii "smartphone"
  brand := ascii "Google"
  model := ascii "Pixel 4"
  os := ascii "Android"
  osVersion := ascii v

theorem Demo.phone_truth : Truth Demo.tables fnv1 Demo.phone (Demo.phoneGot "10") where
  clientType := ⟨1, by decide +kernel, by decide +kernel⟩
  browser := by decide +kernel
  browserVersion := by decide +kernel
  engine := by decide +kernel
  engineVersion := by decide +kernel
  deviceType := ⟨2, by decide +kernel, by decide +kernel⟩
  brand := by decide +kernel
  model := by decide +kernel
  os := by decide +kernel
  osVersion := by decide +kernel

theorem Demo.phone2_truth : Truth Demo.tables fnv1 Demo.phone2 (Demo.phoneGot "10.1") where
  clientType := ⟨1, by decide +kernel, by decide +kernel⟩
  browser := by decide +kernel
  browserVersion := by decide +kernel
  engine := by decide +kernel
  engineVersion := by decide +kernel
  deviceType := ⟨2, by decide +kernel, by decide +kernel⟩
  brand := by decide +kernel
  model := by decide +kernel
  os := by decide +kernel
  osVersion := by decide +kernel

/-- C66, refuted in general: in a file that contains a row twice, the second occurrence is reported with a wrong model. The row is right: alone in
its file it is not reported. -/
theorem C66_refuted : ¬ C66Claim Demo.tables fnv1 id := by
  intro h
  obtain ⟨l, h1, h2⟩ := h Demo.twice 1 Demo.twiceRun Demo.twice_reach
    (hash_of_list (by decide +kernel))
    (by decide +kernel) (by decide +kernel) (fun _ => Demo.phoneGot "10")
    (by
      intro r hr
      simp only [Demo.twice, List.mem_cons, List.not_mem_nil, or_false, or_self] at hr
      subst hr; exact Demo.phone_truth)
    (returned_of (by decide +kernel))
  have h3 : (l.flatMap fun r => report id r (Demo.phoneGot "10")) = [] := by
    rw [List.flatMap_eq_nil_iff]
    intro r hr
    have hr := h1.mem_iff.mp hr
    simp only [Demo.twice, List.mem_cons, List.not_mem_nil, or_false, or_self] at hr
    subst hr
    decide +kernel
  rw [h3] at h2
  exact absurd h2 (by decide +kernel)

/-- The report of that run. -/
example : Demo.twiceRun.cli.out.flatten =
    Demo.phone ++ ascii "\n* model mismatch: need 'Pixel 4' got 'Mozilla'\n\n" := by decide +kernel

/-! ### The hypotheses are met by a file with a repeated user agent -/

/-- A right row, a row with a wrong brand, a right row with the same user agent. -/
def Demo.three : List Row := [{ ua := Demo.phone, model := ascii "Pixel 4" }, { ua := Demo.phone2, brand := ascii "Acer" },
  { ua := Demo.phone2, osVersion := ascii "10.1" }]

/-- A run on it that returns. -/
def Demo.threeRun : Batch := (Batch.start 1).ticks Demo.tables fnv1 id Demo.three 150

theorem Demo.three_reach : Batch.Reach Demo.tables fnv1 id Demo.three 1 Demo.threeRun := (lone_ticks 150 lone_start).1

/-- So the theorem tells the report. -/
example : ∃ l : List Row, l.Perm Demo.three ∧ Demo.threeRun.cli.out.flatten =
    l.flatMap fun r => report id r ((fun u => if u = Demo.phone then Demo.phoneGot "10" else Demo.phoneGot "10.1") r.ua) :=
  C66_report_partial (truth := fun u => if u = Demo.phone then Demo.phoneGot "10" else Demo.phoneGot "10.1") Demo.three_reach
    (hash_of_list (by decide +kernel)) (by decide +kernel) (by decide +kernel) (by unfold Once; decide +kernel)
    (by
      intro r hr
      simp only [Demo.three, List.mem_cons, List.not_mem_nil, or_false] at hr
      rcases hr with rfl | rfl | rfl
      · exact Demo.phone_truth
      · exact (if_neg (show ¬ Demo.phone2 = Demo.phone by decide +kernel)).symm ▸ Demo.phone2_truth
      · exact (if_neg (show ¬ Demo.phone2 = Demo.phone by decide +kernel)).symm ▸ Demo.phone2_truth)
    (returned_of (by decide +kernel))

/-- And it is not empty. -/
example : Demo.threeRun.cli.out.flatten = Demo.phone2 ++ ascii "\n* brand mismatch: need 'Acer' got 'Google'\n\n" := by decide +kernel

/-- C66_no_panic and C66_answers on a file without repetitions. -/
example {s : Batch} {n : Nat} (hr : Batch.Reach Demo.tables fnv1 id (Demo.three.take 2) n s) :
    s.panicked = false ∧ ∀ r g, (r, g) ∈ s.cli.handled → ∃ g0, Truth Demo.tables fnv1 r.ua g0 ∧ (Once (Demo.three.take 2) r.ua → g = g0) := by
  have hH := hash_of_list (H := fnv1) (rows := Demo.three.take 2) (by decide +kernel)
  refine ⟨C66_no_panic hr hH (by decide +kernel) (by decide +kernel) (by unfold Once; decide +kernel), fun r g hx => ?_⟩
  obtain ⟨g0, h1, -, h2⟩ := C66_answers hr hH (by decide +kernel) (by decide +kernel) hx
  exact ⟨g0, h1, h2⟩

/-- C66_terminates: an infinite run, in which the tool is stopped in the middle and only the cleaner goes on. -/
def Demo.halted : Nat → Batch
  | 0 => (Batch.start 1).ticks Demo.tables fnv1 id Demo.three 30
  | n + 1 => { Demo.halted n with sys := { (Demo.halted n).sys with cache := (Demo.halted n).sys.cache.clean 7 } }

theorem Demo.halted_alive : ∀ n, (Demo.halted n).panicked = false
  | 0 => by decide +kernel
  | n + 1 => Demo.halted_alive n

example : ∃ N, ∀ n, N ≤ n → (Demo.halted n).CleanOnly (Demo.halted (n + 1)) :=
  C66_terminates (T := Demo.tables) (H := fnv1) (lower := id) (rows := Demo.three) (threads := 1) Demo.halted (lone_ticks 30 lone_start).1
    fun n => .sys (Demo.halted_alive n) (.clean 7) rfl

/-- C66_no_deadlock at the start. -/
example : ∃ s', Batch.Step Demo.tables fnv1 id Demo.three 4 (.start 4) s' ∧ ¬ (Batch.start 4).CleanOnly s' :=
  C66_no_deadlock (by decide) .init (fun h => absurd h.1 (by decide)) rfl

end Verif.Cli

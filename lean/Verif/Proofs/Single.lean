import Verif.Model.Single
import Verif.Proofs.BatchTerm
/-
Invariant of the single user agent mode of the command line tool.
-/
namespace Verif.Cli

section
variable {T : Tables} {H : Bytes → UInt64} {u : Bytes}

theorem single_sys {s : Single} (hr : Single.Reach T H u s) : BSys.Reach T H s.sys := by
  induction hr with
  | init => exact .init
  | step _ st ih =>
    cases st with
    | sys hp st hl => exact .step ih st
    | call hp ho ht => exact .step ih (.call _ ht)
    | ret hp ht => exact .step ih (.ret ht)
    | panic hp ht => exact ih

/-- The report lines of the getters `gs`, from the answers without a cache. -/
def linesOf (T : Tables) (H : Bytes → UInt64) (u : Bytes) (gs : List Getter) : Bytes :=
  gs.flatMap fun g => written (.get g) (uncached T H g { ua := u })

/-- A file with only that user agent, so that what is known about batches applies. -/
def onlyRow (u : Bytes) : Row := { ua := u }

theorem once_only : Once [onlyRow u] u := by simp [Once, onlyRow]

/-- The stages of the run. -/
inductive SPhase (T : Tables) (H : Bytes → UInt64) (u : Bytes) (log : List Event) : BThread → List Op → Bytes → Prop where
  | start (hl : log = []) : SPhase T H u log (.idle newCtx) (singleScript u) []
  | setting {c} (hs : Sess [onlyRow u] log 0 (onlyRow u) []) : SPhase T H u log (.busy (.setUserAgent u) (.ret (c, some none))) (shown.map .get) []
  | asking {c gs gs'} (hg : shown = gs ++ gs') (hs : Sess [onlyRow u] log 0 (onlyRow u) gs) : SPhase T H u log (.idle c) (gs'.map .get) (linesOf T H u gs)
  | waiting {th gs g gs'} (hg : shown = gs ++ g :: gs') (hs : Sess [onlyRow u] log 0 (onlyRow u) (gs ++ [g])) (hth : Asks g th) :
      SPhase T H u log th (gs'.map .get) (linesOf T H u gs)

structure SInv (T : Tables) (H : Bytes → UInt64) (u : Bytes) (s : Single) : Prop where
  us : ∀ t q, UsedBy t s.sys.log q → t = 0 ∧ q.ua = u
  ph : SPhase T H u s.sys.log (s.sys.threads 0) s.todo s.out
  np : s.panicked = false

/-- Steps inside a getter. -/
theorem sphase_sys {b b' : BSys} (hr : BSys.Reach T H b) (st : BSys.Step T H b b') (hl : b'.log = b.log) {todo : List Op} {out : Bytes}
    (h : SPhase T H u b.log (b.threads 0) todo out) : SPhase T H u b'.log (b'.threads 0) todo out := by
  have hcr := C64_no_panic (.step hr st) 0
  have key : ∀ (t0 : Nat) (th : BThread), b'.threads = b.put t0 th → (t0 = 0 → (∃ op p, b.threads 0 = .busy op p ∧ ∀ x, p ≠ .ret x) ∨ (∃ op k p f, b.threads 0 = .reading op k p f)) →
      (∀ g, t0 = 0 → Asks g (b.threads 0) → Asks g th ∨ th = .crashed) → SPhase T H u b'.log (b'.threads 0) todo out := by
    intro t0 th e1 e2 e3
    rw [hl]
    by_cases et : t0 = 0
    · subst et
      rw [e1, bput_same] at hcr ⊢
      generalize b.threads 0 = b0 at h e2 e3
      cases h with
      | start => obtain ⟨_, _, h, -⟩ | ⟨_, _, _, _, h⟩ := e2 rfl <;> cases h
      | setting hs => obtain ⟨_, _, h, h'⟩ | ⟨_, _, _, _, h⟩ := e2 rfl <;> cases h; exact absurd rfl (h' _)
      | asking hg hs => obtain ⟨_, _, h, -⟩ | ⟨_, _, _, _, h⟩ := e2 rfl <;> cases h
      | waiting hg hs hth => exact .waiting hg hs ((e3 _ rfl hth).resolve_right hcr)
    · rw [e1, bput_ne _ _ (Ne.symm et)]
      exact h
  cases st with
  | call op ht => simp at hl
  | ret ht => simp at hl
  | @miss t0 op k f now ht hg =>
    refine key t0 _ rfl (fun e => .inl ⟨_, _, by rw [← e]; exact ht, fun _ h => by cases h⟩) fun g e h => ?_
    subst e; rw [ht] at h
    cases h with | busy h => exact .inl (.busy (h _))
  | @hit t0 op k f p now ht hg =>
    refine key t0 _ rfl (fun e => .inl ⟨_, _, by rw [← e]; exact ht, fun _ h => by cases h⟩) fun g e h => ?_
    subst e; rw [ht] at h
    cases h with | busy h => exact .inl (.reading h)
  | @read t0 op k p f ht =>
    refine key t0 _ rfl (fun e => .inr ⟨_, _, _, _, by rw [← e]; exact ht⟩) fun g e h => ?_
    subst e; rw [ht] at h
    cases h with | reading h => exact .inl (.busy (h _))
  | @set t0 op k e p c now ht hs =>
    refine key t0 _ rfl (fun e => .inl ⟨_, _, by rw [← e]; exact ht, fun _ h => by cases h⟩) fun g e h => ?_
    subst e; rw [ht] at h
    cases h with | busy h => exact .inl (.busy h)
  | @crash t0 op k e p now ht hs =>
    refine key t0 _ rfl (fun e => .inl ⟨_, _, by rw [← e]; exact ht, fun _ h => by cases h⟩) fun g e h => .inr rfl
  | clean now => exact h

theorem linesOf_snoc (gs : List Getter) (g : Getter) : linesOf T H u (gs ++ [g]) = linesOf T H u gs ++ written (.get g) (uncached T H g { ua := u }) := by
  simp [linesOf]

theorem shown_pre {gs gs' : List Getter} {g : Getter} (hg : shown = gs ++ g :: gs') {x : Getter} (hx : x ∈ gs ++ [g]) : x ∈ shown := by
  rw [hg]
  simp only [List.mem_append, List.mem_cons, List.not_mem_nil, or_false] at hx ⊢
  rcases hx with h | h
  · exact .inl h
  · exact .inr (.inl h)

/-- The answer that is about to be given. -/
theorem single_answer {s : Single} (hr : Single.Reach T H u s) (hus : ∀ t q, UsedBy t s.sys.log q → t = 0 ∧ q.ua = u)
    (hsize : 11 * growth T u + modelBound T u < 2 ^ 32)
    {gs gs' : List Getter} {g : Getter} (hok : ∀ x ∈ gs ++ [g], uncached T H x { ua := u } ≠ none) (hg : shown = gs ++ g :: gs') (hs : Sess [onlyRow u] s.sys.log 0 (onlyRow u) (gs ++ [g])) {c : Ctx}
    {x : Option (Option Ans)} (ht : s.sys.threads 0 = .busy (.get g) (.ret (c, x))) : x = (uncached T H g { ua := u }).map some := by
  have hr' := BSys.Reach.step (single_sys hr) (.ret ht)
  obtain ⟨pre, l, h1, h2, h3, h4, h5, h6⟩ := hs
  change reqOf pre 0 = { ua := u } at h2
  change reqOf s.sys.log 0 = { ua := u } at h3
  have hlen : (gs ++ [g]).length ≤ 11 := by
    have := congrArg List.length hg
    simp [shown] at this ⊢
    omega
  have := C20_sole_builtin_partial (t := 0) (pre1 := pre) (l := l) (post := []) (g := g) (r := x) hr' (by rw [← h1])
    (by
      rw [← h1, h3]
      rintro q ⟨a, b, t, g, hu, e⟩ -
      exact (hus t q ⟨a, b, g, hu, e⟩).2)
    (by
      rw [h2]
      refine ⟨h4 once_only, h5, fun t' ht' q hq _ => ?_⟩
      rw [← h1] at hq
      exact ht' (hus t' q hq).1)
    (by
      rw [h2, h6]
      exact hok)
    (by
      rw [h2, h6]
      have := Nat.mul_le_mul_right (growth T u) hlen
      show (gs ++ [g]).length * growth T u + modelBound T u < _
      omega)
  rw [this, ← h1, h3]

theorem used_call {t : Nat} {log : List Event} {op : Op} {q : Req} (h : UsedBy t (log ++ [.call 0 op]) q) : UsedBy t log q ∨ t = 0 ∧ (∃ g, op = .get g) ∧ reqOf log 0 = q := by
  rcases usedBy_snoc h with h | ⟨g, h, hq⟩
  · exact .inl h
  · cases h; exact .inr ⟨rfl, ⟨g, rfl⟩, hq⟩

theorem used_ret {t t' : Nat} {log : List Event} {op : Op} {q : Req} {r : Option (Option Ans)} (h : UsedBy t (log ++ [.ret t' op r]) q) : UsedBy t log q := by
  rcases usedBy_snoc h with h | ⟨g, h, -⟩
  · exact h
  · cases h

theorem single_inv (hok : ∀ g ∈ shown, uncached T H g { ua := u } ≠ none) (hsize : 11 * growth T u + modelBound T u < 2 ^ 32)
    {s : Single} (hr : Single.Reach T H u s) : SInv T H u s := by
  induction hr with
  | init =>
    refine ⟨fun t q h => ?_, .start rfl, rfl⟩
    · obtain ⟨a, b, g, h, -⟩ := h
      simp [Single.start, BSys.init] at h
  | @step s s' hr st I =>
    have hph := I.ph
    cases st with
    | sys hp st hl =>
      refine ⟨?_, sphase_sys (single_sys hr) st hl I.ph, I.np⟩
      · show ∀ t q, UsedBy t _ q → _
        rw [hl]; exact I.us
    | @call op rest c hp ho ht =>
      rw [ho, ht] at hph
      generalize hout : s.out = out at hph
      generalize hop : op :: rest = todo at hph
      generalize hth : BThread.idle c = th at hph
      cases hph with
      | start hl =>
        cases hth
        cases hop
        refine ⟨fun t q h => (used_call h).elim (I.us t q) fun ⟨_, ⟨_, h⟩, _⟩ => (by cases h), ?_, I.np⟩
        · show SPhase T H u (s.sys.log ++ [.call 0 (.setUserAgent u)]) (s.sys.put 0 _ 0) (shown.map .get) []
          rw [bput_same, hl]
          refine .setting ⟨[.call 0 (.setUserAgent u)], [], rfl, rfl, rfl, fun _ q hq => ?_, fun op ho => (by cases ho), rfl⟩
          obtain ⟨a, b, t, g, h, -⟩ := hq
          rcases a with _ | ⟨y, a⟩
          · cases h
          · have := congrArg List.length h; simp at this
      | setting hs => cases hth
      | @asking c gs gs' hg hs =>
        cases hth
        rcases gs' with _ | ⟨g, gs'⟩
        · cases hop
        · cases hop
          refine ⟨fun t q h => (used_call h).elim (I.us t q) fun ⟨e, _, hq⟩ => ⟨e, by rw [← hq]; exact hs.ua⟩, ?_, I.np⟩
          · show SPhase T H u (s.sys.log ++ [.call 0 (.get g)]) (s.sys.put 0 _ 0) (gs'.map .get) (linesOf T H u gs)
            rw [bput_same]
            exact .waiting hg (hs.ask g) (.busy (gives_get g c))
      | waiting hg hs hth' => subst hth; cases hth'
    | @ret op c a hp ht =>
      rw [ht] at hph
      generalize hout : s.out = out at hph
      generalize htd : s.todo = todo at hph
      generalize hth : BThread.busy op (.ret (c, some a)) = th at hph
      refine ⟨fun t q h => I.us t q (used_ret h), ?_, I.np⟩
      show SPhase T H u (s.sys.log ++ [.ret 0 op (some a)]) (s.sys.put 0 (.idle c) 0) todo (out ++ written op a)
      rw [bput_same]
      cases hph with
      | start => cases hth
      | setting hs =>
        cases hth
        exact .asking (gs := []) (gs' := shown) rfl (hs.ret _ _ _)
      | asking hg hs => cases hth
      | @waiting th gs g gs' hg hs hth' =>
        subst hth
        cases hth'
        have hx := single_answer hr I.us hsize (fun x hx => hok x (shown_pre hg hx)) hg hs ht
        obtain ⟨b, hb⟩ := Option.ne_none_iff_exists'.mp (hok g (by rw [hg]; simp))
        rw [hb] at hx
        cases hx
        rw [← hb, ← linesOf_snoc]
        exact .asking (gs := gs ++ [g]) (gs' := gs') (by rw [hg, List.append_assoc]; rfl) (hs.ret _ _ _)
    | @panic op c hp ht =>
      exfalso
      rw [ht] at hph
      generalize hout : s.out = out at hph
      generalize htd : s.todo = todo at hph
      generalize hth : BThread.busy op (.ret (c, none)) = th at hph
      cases hph with
      | start => cases hth
      | setting hs => cases hth
      | asking hg hs => cases hth
      | @waiting th gs g gs' hg hs hth' =>
        subst hth
        cases hth'
        have hx := single_answer hr I.us hsize (fun x hx => hok x (shown_pre hg hx)) hg hs ht
        obtain ⟨b, hb⟩ := Option.ne_none_iff_exists'.mp (hok g (by rw [hg]; simp))
        rw [hb] at hx
        cases hx

/-! ### Steps left -/

/-- `s'` is `s` after a pass of the cleaner (cache.go:29-37, 70-88). -/
def Single.CleanOnly (s s' : Single) : Prop := ∃ now, s' = { s with sys := { s.sys with cache := s.sys.cache.clean now } }

/-- How many steps the run has still to make, at most. -/
def SCost (s : Single) (n : Nat) : Prop := ∃ m, Cost (s.sys.threads 0) m ∧ n = 10 * s.todo.length + m

/-- Only the first context is ever used. -/
theorem single_others {s : Single} (hr : Single.Reach T H u s) : ∀ t, t ≠ 0 → ∃ c, s.sys.threads t = .idle c := by
  induction hr with
  | init => exact fun t _ => ⟨_, rfl⟩
  | @step s s' hr st ih =>
    intro t ht0
    obtain ⟨c, hc⟩ := ih t ht0
    cases st with
    | sys hp st hl => exact ⟨c, idle_sys st hl hc⟩
    | call hp ho ht => exact ⟨c, by show s.sys.put 0 _ t = _; rw [bput_ne _ _ ht0]; exact hc⟩
    | ret hp ht => exact ⟨c, by show s.sys.put 0 _ t = _; rw [bput_ne _ _ ht0]; exact hc⟩
    | panic hp ht => exact ⟨c, hc⟩

/-- Every step is one of the cleaner, or a panic, or leads closer to the end. -/
theorem single_down {s s' : Single} (hr : Single.Reach T H u s) (st : Single.Step T H s s') :
    s.CleanOnly s' ∨ s'.panicked = true ∨ ∀ n, SCost s n → ∃ n', n' < n ∧ SCost s' n' := by
  cases st with
  | sys hp st hl =>
    rcases cost_sys st hl with ⟨now, rfl⟩ | ⟨t, th, h1, h2, h3⟩
    · exact .inl ⟨now, rfl⟩
    · right; right
      by_cases ht : t = 0
      · subst ht
        rintro n ⟨m, hm, rfl⟩
        obtain ⟨m', h4, h5⟩ := h3 m hm
        refine ⟨10 * s.todo.length + m', by omega, m', ?_, rfl⟩
        show Cost (_) m'
        rw [h1, bput_same]; exact h5
      · obtain ⟨c, hc⟩ := single_others hr t ht
        exact absurd hc (h2 c)
  | @call op rest c hp ho ht =>
    right; right
    rintro n ⟨m, hm, rfl⟩
    refine ⟨10 * rest.length + (2 * 4 + 1), ?_, _, ?_, rfl⟩
    · rw [ho, List.length_cons]; omega
    · show Cost (s.sys.put 0 _ 0) _
      rw [bput_same]; exact .busy (deep_op op c)
  | @ret op c a hp ht =>
    right; right
    rintro n ⟨m, hm, rfl⟩
    rw [ht] at hm
    refine ⟨10 * s.todo.length + 0, ?_, 0, ?_, rfl⟩
    · cases hm; omega
    · show Cost (s.sys.put 0 _ 0) _
      rw [bput_same]; exact .idle
  | panic hp ht => exact .inr (.inl rfl)

theorem scost_exists {s : Single} (hr : Single.Reach T H u s) : ∃ n, SCost s n := by
  obtain ⟨m, hm⟩ := cost_exists (single_sys hr) 0
  exact ⟨_, m, hm, rfl⟩

end

end Verif.Cli

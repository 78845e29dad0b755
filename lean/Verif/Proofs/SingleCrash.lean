import Verif.Proofs.Single
/-
The single user agent mode of the command line tool on a user agent for which GetClientType panics.
-/
namespace Verif.Cli

section
variable {T : Tables} {H : Bytes → UInt64} {u : Bytes}

/-- 1 while a method runs. -/
def running : BThread → Nat
  | .idle _ => 0
  | _ => 1

structure CrashInv (T : Tables) (H : Bytes → UInt64) (u : Bytes) (s : Single) : Prop where
  us : ∀ t q, UsedBy t s.sys.log q → t = 0 ∧ q.ua = u
  ph : SPhase T H u s.sys.log (s.sys.threads 0) s.todo s.out
  left : 10 ≤ s.todo.length + running (s.sys.threads 0)
  dead : s.panicked = true → s.out = linesOf T H u [.userAgent]

theorem afterNull_userAgent {gs : List Getter} (h : gs.Sublist [.userAgent]) (c : Ctx) : afterNull T gs c = c := by
  rcases gs with _ | ⟨g, gs⟩
  · rfl
  · have hl := h.length_le
    have hg := h.subset (List.mem_cons_self (a := g) (l := gs))
    rcases gs with _ | ⟨_, _⟩
    · simp at hg; subst hg; rfl
    · simp at hl

theorem sublist_first {α : Type} {l : List α} {a b : α} (h : (l ++ [b]).Sublist [a, b]) : l.Sublist [a] := by
  have := h.reverse
  simp only [List.reverse_append, List.reverse_cons, List.reverse_nil, List.nil_append, List.cons_append] at this
  have := (List.cons_sublist_cons.mp this).reverse
  simpa using this

/-- What GetClientType is about to do. -/
theorem single_clientType {s : Single} (hr : Single.Reach T H u s) (hus : ∀ t q, UsedBy t s.sys.log q → t = 0 ∧ q.ua = u)
    (hs : Sess [onlyRow u] s.sys.log 0 (onlyRow u) [.userAgent, .clientType]) {c : Ctx}
    {x : Option (Option Ans)} (ht : s.sys.threads 0 = .busy (.get .clientType) (.ret (c, x))) : x = (uncached T H .clientType { ua := u }).map some := by
  have hr' := BSys.Reach.step (single_sys hr) (.ret ht)
  obtain ⟨pre, l, h1, h2, h3, h4, h5, h6⟩ := hs
  change reqOf pre 0 = { ua := u } at h2
  change reqOf s.sys.log 0 = { ua := u } at h3
  obtain ⟨-, gs', hg, hx⟩ := sole_builtin (t := 0) (pre1 := pre) (l := l) (post := []) (g := .clientType) (r := x) hr' (by rw [← h1])
    (by
      rw [← h1, h3]
      rintro q ⟨a, b, t, g, hu, e⟩ -
      exact (hus t q ⟨a, b, g, hu, e⟩).2)
    (by
      rw [h2]
      refine ⟨h4 once_only, h5, fun t' ht' q hq _ => ?_⟩
      rw [← h1] at hq
      exact ht' (hus t' q hq).1)
  rw [h6] at hg
  rw [hx, afterNull_userAgent (sublist_first hg), h2]
  rfl

theorem running_sys {b b' : BSys} (st : BSys.Step T H b b') (hl : b'.log = b.log) : running (b.threads 0) ≤ running (b'.threads 0) := by
  cases h : b'.threads 0 with
  | idle c =>
    have key : ∀ (t0 : Nat) (th : BThread), b'.threads = b.put t0 th → (∀ c, th ≠ .idle c) → b.threads 0 = .idle c := by
      intro t0 th e1 e2
      rw [e1] at h
      by_cases et : (0 : Nat) = t0
      · subst et; rw [bput_same] at h; exact absurd h (e2 c)
      · rw [bput_ne _ _ et] at h; exact h
    have : b.threads 0 = .idle c := by
      cases st with
      | call op ht => simp at hl
      | ret ht => simp at hl
      | miss now ht hg => exact key _ _ rfl (by intro c h; cases h)
      | hit now ht hg => exact key _ _ rfl (by intro c h; cases h)
      | read ht => exact key _ _ rfl (by intro c h; cases h)
      | set now ht hs => exact key _ _ rfl (by intro c h; cases h)
      | crash now ht hs => exact key _ _ rfl (by intro c h; cases h)
      | clean now => exact h
    rw [this]
    exact Nat.le_refl _
  | _ => cases b.threads 0 <;> simp [running]

theorem first_two {gs gs' : List Getter} {g : Getter} (hg : shown = gs ++ g :: gs') (hl : 9 ≤ gs'.length) :
    (gs = [] ∧ g = .userAgent) ∨ (gs = [.userAgent] ∧ g = .clientType) := by
  have hlen := congrArg List.length hg
  simp only [shown, List.length_append, List.length_cons, List.length_nil] at hlen
  rcases gs with _ | ⟨a, _ | ⟨b, gs⟩⟩
  · simp only [shown, List.nil_append, List.cons.injEq] at hg
    exact .inl ⟨rfl, hg.1.symm⟩
  · simp only [shown, List.cons_append, List.nil_append, List.cons.injEq] at hg
    exact .inr ⟨by rw [← hg.1], hg.2.1.symm⟩
  · simp only [List.length_cons] at hlen
    omega

theorem crash_inv (hn : uncached T H .clientType { ua := u } = none) (hsize : 11 * growth T u + modelBound T u < 2 ^ 32)
    {s : Single} (hr : Single.Reach T H u s) : CrashInv T H u s := by
  have hua : uncached T H .userAgent { ua := u } = some (.text u) := by
    unfold uncached
    rw [newCtx_eq]
    rfl
  have hok : ∀ x ∈ [] ++ [Getter.userAgent], uncached T H x { ua := u } ≠ none := by
    intro x hx
    simp at hx
    rw [hx, hua]; simp
  induction hr with
  | init =>
    refine ⟨fun t q h => ?_, .start rfl, (by simp [Single.start, singleScript, shown]; omega), fun h => by cases h⟩
    · obtain ⟨a, b, g, h, -⟩ := h
      simp [Single.start, BSys.init] at h
  | @step s s' hr st I =>
    have hph := I.ph
    have hleft := I.left
    cases st with
    | sys hp st hl =>
      refine ⟨?_, sphase_sys (single_sys hr) st hl I.ph, ?_, I.dead⟩
      · show ∀ t q, UsedBy t _ q → _
        rw [hl]; exact I.us
      · have := running_sys st hl
        exact Nat.le_trans hleft (Nat.add_le_add_left this _)
    | @call op rest c hp ho ht =>
      have hdead : ∀ {P : Prop}, s.panicked = true → P := fun h => by rw [hp] at h; cases h
      rw [ho, ht] at hph hleft
      have hleft' : 10 ≤ rest.length + running (s.sys.put 0 (.busy op (op.prog T H c)) 0) := by
        rw [bput_same]
        simpa [running] using hleft
      generalize hout : s.out = out at hph
      generalize hop : op :: rest = todo at hph
      generalize hth : BThread.idle c = th at hph
      cases hph with
      | start hl =>
        cases hth
        cases hop
        refine ⟨fun t q h => (used_call h).elim (I.us t q) fun ⟨_, ⟨_, h⟩, _⟩ => (by cases h), ?_, hleft', hdead⟩
        · show SPhase T H u (s.sys.log ++ [.call 0 (.setUserAgent u)]) (s.sys.put 0 _ 0) (shown.map .get) []
          rw [bput_same, hl]
          refine .setting ⟨[.call 0 (.setUserAgent u)], [], rfl, rfl, rfl, fun _ q hq => ?_, fun op ho => (by cases ho), rfl⟩
          obtain ⟨a, b, t, g, h, -⟩ := hq
          rcases a with _ | ⟨y, a⟩
          · cases h
          · have := congrArg List.length h; simp at this
      | setting hs => cases hth
      | @asking c gs gs' hg hs =>
        cases hth
        rcases gs' with _ | ⟨g, gs'⟩
        · cases hop
        · cases hop
          refine ⟨fun t q h => (used_call h).elim (I.us t q) fun ⟨e, _, hq⟩ => ⟨e, by rw [← hq]; exact hs.ua⟩, ?_, hleft', hdead⟩
          · show SPhase T H u (s.sys.log ++ [.call 0 (.get g)]) (s.sys.put 0 _ 0) (gs'.map .get) (linesOf T H u gs)
            rw [bput_same]
            exact .waiting hg (hs.ask g) (.busy (gives_get g c))
      | waiting hg hs hth' => subst hth; cases hth'
    | @ret op c a hp ht =>
      have hdead : ∀ {P : Prop}, s.panicked = true → P := fun h => by rw [hp] at h; cases h
      rw [ht] at hph hleft
      generalize hout : s.out = out at hph
      generalize htd : s.todo = todo at hph hleft
      generalize hth : BThread.busy op (.ret (c, some a)) = th at hph
      have hmain : SPhase T H u (s.sys.log ++ [.ret 0 op (some a)]) (.idle c) todo (out ++ written op a) ∧ 10 ≤ todo.length := by
        cases hph with
        | start => cases hth
        | setting hs =>
          cases hth
          exact ⟨.asking (gs := []) (gs' := shown) rfl (hs.ret _ _ _), by decide⟩
        | asking hg hs => cases hth
        | @waiting th gs g gs' hg hs hth' =>
          subst hth
          cases hth'
          have h9 : 9 ≤ gs'.length := by
            simp only [running, List.length_map] at hleft
            omega
          rcases first_two hg h9 with ⟨rfl, rfl⟩ | ⟨rfl, rfl⟩
          · have hx := single_answer hr I.us hsize hok hg hs ht
            rw [hua] at hx
            cases hx
            have hgs : gs' = shown.tail := by rw [hg]; rfl
            refine ⟨?_, by rw [hgs]; decide⟩
            rw [← hua, ← linesOf_snoc]
            exact .asking (gs := [] ++ [.userAgent]) (gs' := gs') hg (hs.ret _ _ _)
          · have hx := single_clientType hr I.us hs ht
            rw [hn] at hx
            cases hx
      refine ⟨fun t q h => I.us t q (used_ret h), ?_, ?_, hdead⟩
      · show SPhase T H u (s.sys.log ++ [.ret 0 op (some a)]) (s.sys.put 0 (.idle c) 0) todo (out ++ written op a)
        rw [bput_same]
        exact hmain.1
      · show 10 ≤ todo.length + _
        have := hmain.2
        omega
    | @panic op c hp ht =>
      refine ⟨I.us, I.ph, I.left, fun _ => ?_⟩
      show s.out = _
      rw [ht] at hph hleft
      generalize hout : s.out = out at hph
      generalize htd : s.todo = todo at hph hleft
      generalize hth : BThread.busy op (.ret (c, none)) = th at hph
      cases hph with
      | start => cases hth
      | setting hs => cases hth
      | asking hg hs => cases hth
      | @waiting th gs g gs' hg hs hth' =>
        subst hth
        cases hth'
        have h9 : 9 ≤ gs'.length := by
          simp only [running, List.length_map] at hleft
          omega
        rcases first_two hg h9 with ⟨rfl, rfl⟩ | ⟨rfl, rfl⟩
        · have hx := single_answer hr I.us hsize hok hg hs ht
          rw [hua] at hx
          cases hx
        · rfl

end

end Verif.Cli

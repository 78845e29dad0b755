import Verif.Proofs.Sole
import Verif.Proofs.System
import Verif.Proofs.NullModel
/-
Executions in which one context alone is asked about a user agent: the context behaves as if there were no cache.
-/
namespace Verif

section
variable {T : Tables} {H : Bytes → UInt64}

theorem UsedBy.used {t : Nat} {log : List Event} {q : Req} (h : UsedBy t log q) : Used log q := by
  obtain ⟨a, b, g, h1, h2⟩ := h
  exact ⟨a, b, t, g, h1, h2⟩

theorem UsedBy.append {t : Nat} {log log' : List Event} {q : Req} (h : UsedBy t log q) : UsedBy t (log ++ log') q := by
  obtain ⟨a, b, g, h1, h2⟩ := h
  exact ⟨a, b ++ log', g, by simp [h1], h2⟩

theorem UsedBy.call (log : List Event) (t : Nat) (g : Getter) : UsedBy t (log ++ [.call t (.get g)]) (reqOf log t) := ⟨log, [], g, rfl, rfl⟩

theorem NoUse.of_append {u : Bytes} {log log' : List Event} (h : NoUse u (log ++ log')) : NoUse u log := fun q hq => h q hq.append

/-- What a thread is doing, given the log. -/
inductive ThrOK (H : Bytes → UInt64) (log : List Event) (t : Nat) : Thread → Prop where
  | idle {c : Ctx} (hs : c.src = (reqOf log t).ua) (hn : NoUse (reqOf log t).ua log → c = (reqOf log t).newCtx H) : ThrOK H log t (.idle c)
  | get {g : Getter} {p : Prog (Ctx × Option (Option Ans))} (hu : UsedBy t log (reqOf log t)) {a b : Nat}
      (hw : p.Within (reqOf log t).ua (fun r => r.1.src = (reqOf log t).ua) a b) : ThrOK H log t (.busy (.get g) p)
  | setter {op : Op} {c : Ctx} {r : Option (Option Ans)} (ho : ∀ g, op ≠ .get g) (hs : c.src = (reqOf log t).ua) (hn : NoUse (reqOf log t).ua log → c = (reqOf log t).newCtx H) :
      ThrOK H log t (.busy op (.ret (c, r)))

theorem ThrOK.later {log : List Event} {t : Nat} {th : Thread} (h : ThrOK H log t th) {e : Event} (he : reqOf (log ++ [e]) t = reqOf log t) :
    ThrOK H (log ++ [e]) t th := by
  cases h with
  | idle hs hn => exact .idle (by rw [he]; exact hs) (by rw [he]; exact fun h => hn h.of_append)
  | get hu hw => exact .get (by rw [he]; exact hu.append) (by rw [he]; exact hw)
  | setter ho hs hn => exact .setter ho (by rw [he]; exact hs) (by rw [he]; exact fun h => hn h.of_append)

structure KeysInv (H : Bytes → UInt64) (s : Sys) : Prop where
  hist : ∀ k e, (k, e) ∈ s.hist → ∃ q, Used s.log q ∧ q.ua = k
  thr : ∀ t, ThrOK H s.log t (s.threads t)

theorem keys_inv {s : Sys} (hr : Sys.Reach T H s) : KeysInv H s := by
  induction hr with
  | init =>
    refine ⟨by simp [Sys.init], fun t => .idle rfl fun _ => ?_⟩
    rw [newCtx_eq]; rfl
  | @step s s' hr st ih =>
    have I := sys_inv (MC := fun _ _ => True) (MD := fun _ _ => True) hr (fun _ _ => ⟨trivial, trivial⟩)
    cases st with
    | @call t c op h =>
      refine ⟨fun k e he => ?_, fun t' => ?_⟩
      · obtain ⟨q, h1, h2⟩ := ih.hist k e he
        exact ⟨q, h1.append, h2⟩
      by_cases et : t' = t
      · subst et
        simp only [put_same]
        have ht := ih.thr t'
        rw [h] at ht
        obtain ⟨hs, hn⟩ : c.src = (reqOf s.log t').ua ∧ (NoUse (reqOf s.log t').ua s.log → c = (reqOf s.log t').newCtx H) := by cases ht; exact ⟨‹_›, ‹_›⟩
        cases op with
        | setUserAgent ua =>
          refine .setter (fun _ h => by cases h) ?_ fun _ => ?_
          · rw [reqOf_call]; rfl
          · have I := I.idle t' c h
            rw [reqOf_call, newCtx_eq]
            simp only [Req.call, ← I.mc, ← I.md]
            rfl
        | setRequestedWith x =>
          refine .setter (fun _ h => by cases h) ?_ fun hu => ?_
          · rw [reqOf_call]
            simp only [Ctx.setRequestedWith, Req.call]
            split <;> split <;> exact hs
          · rw [reqOf_call] at hu ⊢
            have hu' : NoUse (reqOf s.log t').ua s.log := by
              have : ((reqOf s.log t').call (.setRequestedWith x)).ua = (reqOf s.log t').ua := by simp only [Req.call]; split <;> rfl
              rw [this] at hu
              exact hu.of_append
            rw [hn hu', newCtx_eq, newCtx_eq]
            by_cases hx : x = []
            · subst hx; rfl
            · have : x.length > 0 := List.length_pos_iff.mpr hx
              simp [Ctx.setRequestedWith, Req.call, Req.hint, hx, this]
        | filterClientType m =>
          refine .setter (fun _ h => by cases h) ?_ fun hu => ?_
          · rw [reqOf_call]; exact hs
          · rw [reqOf_call] at hu ⊢
            rw [hn (NoUse.of_append (log' := [.call t' (.filterClientType m)]) hu), newCtx_eq, newCtx_eq]
            rfl
        | filterDeviceType m =>
          refine .setter (fun _ h => by cases h) ?_ fun hu => ?_
          · rw [reqOf_call]; exact hs
          · rw [reqOf_call] at hu ⊢
            rw [hn (NoUse.of_append (log' := [.call t' (.filterDeviceType m)]) hu), newCtx_eq, newCtx_eq]
            rfl
        | reset =>
          refine .setter (fun _ h => by cases h) ?_ fun hu => ?_
          · rw [reqOf_call]; rfl
          · rw [reqOf_call, newCtx_eq]; rfl
        | get g =>
          have e1 : reqOf (s.log ++ [.call t' (.get g)]) t' = reqOf s.log t' := reqOf_call _ _ _
          refine .get (by rw [e1]; exact UsedBy.call _ _ _) (a := traffic (.get g)) (b := traffic (.get g)) ?_
          rw [e1, ← hs]
          exact ((tr_getter (T := T) g).map.tr c).mono (fun r hr => congrArg Prod.fst hr) (Nat.le_refl _) (Nat.le_refl _)
      · simp only [put_ne _ _ et]
        exact (ih.thr t').later (reqOf_call_ne _ _ et)
    | @getMiss t op k f h =>
      refine ⟨ih.hist, fun t' => ?_⟩
      by_cases et : t' = t
      · subst et
        simp only [put_same]
        have ht := ih.thr t'
        rw [h] at ht
        cases ht with
        | get hu hw => exact .get hu (hw.2.2 .miss)
      · simp only [put_ne _ _ et]; exact ih.thr t'
    | @getHit t op k f h e0 e' he hs =>
      refine ⟨ih.hist, fun t' => ?_⟩
      by_cases et : t' = t
      · subst et
        simp only [put_same]
        have ht := ih.thr t'
        rw [h] at ht
        cases ht with
        | get hu hw => exact .get hu (hw.2.2 (.hit e0))
      · simp only [put_ne _ _ et]; exact ih.thr t'
    | @set t op k e0 p h =>
      have ht := ih.thr t
      rw [h] at ht
      cases ht with
      | get hu hw =>
        refine ⟨fun k' e' h' => ?_, fun t' => ?_⟩
        · simp only [List.mem_append, List.mem_singleton] at h'
          rcases h' with h' | h'
          · exact ih.hist k' e' h'
          · cases h'; exact ⟨_, hu.used, hw.1.symm⟩
        · by_cases et : t' = t
          · subst et
            simp only [put_same]
            exact .get hu hw.2.2
          · simp only [put_ne _ _ et]; exact ih.thr t'
    | @ret t op c r h =>
      refine ⟨fun k e he => ?_, fun t' => ?_⟩
      · obtain ⟨q, h1, h2⟩ := ih.hist k e he
        exact ⟨q, h1.append, h2⟩
      by_cases et : t' = t
      · subst et
        simp only [put_same]
        have ht := ih.thr t'
        rw [h] at ht
        refine ThrOK.later ?_ (reqOf_ret _ _ _ _ _)
        cases ht with
        | get hu hw => exact .idle hw fun hn => absurd rfl (hn _ hu.used)
        | setter ho hs hn => exact .idle hs hn
      · simp only [put_ne _ _ et]
        exact (ih.thr t').later (reqOf_ret _ _ _ _ _)

/-! ### The session -/

/-- The context after the getters `gs`, run without a cache. -/
def afterNull (T : Tables) (gs : List Getter) (c : Ctx) : Ctx := gs.foldl (fun c g => (g.prog T c).runNull.1) c

theorem getsOf_snoc (t : Nat) (l : List Event) (e : Event) : getsOf t (l ++ [e]) = getsOf t l ++ getsOf t [e] := by simp [getsOf]

theorem Session.init {t : Nat} {u : Bytes} {pre1 l l' : List Event} (h : Session t u pre1 (l ++ l')) : Session t u pre1 l :=
  ⟨h.fresh, fun op ho => h.gets op (by simp [ho]), fun t' ht q hq => h.alone t' ht q (by rw [← List.append_assoc]; exact hq.append)⟩

/-- State of context `t` in its session, having been asked `gs`. -/
inductive SoleThr (T : Tables) (H : Bytes → UInt64) (q : Req) (gs : List Getter) : (Nat → Bool) → Thread → Prop where
  | idle {c : Ctx} (hs : c.src = q.ua) (hc : c = afterNull T gs (q.newCtx H)) : SoleThr T H q gs c.check (.idle c)
  | busy {gs' : List Getter} {g : Getter} {p : Prog (Ctx × Option (Option Ans))} {B : Nat → Bool} (hg : gs = gs' ++ [g]) (ho : p.Own q.ua B)
      (hp : p.runNull = ((Op.get g).prog T H (afterNull T gs' (q.newCtx H))).runNull) : SoleThr T H q gs B (.busy (.get g) p)
  | setter {op : Op} {r : Option (Option Ans)} (hop : ∀ g, op ≠ .get g) (hg : gs = []) {B : Nat → Bool} (hB : ∀ n ∈ detFlags, B n = false) :
      SoleThr T H q gs B (.busy op (.ret (q.newCtx H, r)))

theorem runNull_get (g : Getter) (c : Ctx) : ((Op.get g).prog T H c).runNull = ((g.prog T c).runNull.1, (g.prog T c).runNull.2.map some) := by
  have h : (Op.get g).prog T H = M.map some (Getter.prog T g) := rfl
  rw [h]
  exact null_map some (g.prog T) c

theorem sole_inv {s : Sys} (hr : Sys.Reach T H s) {t : Nat} {pre1 : List Event} : ∀ l, s.log = pre1 ++ l → Session t (reqOf pre1 t).ua pre1 l →
    ∃ B, (∀ e, ((reqOf pre1 t).ua, e) ∈ s.hist → Below B e) ∧ SoleThr T H (reqOf pre1 t) (getsOf t l) B (s.threads t) ∧ reqOf s.log t = reqOf pre1 t := by
  induction hr with
  | init =>
    intro l hl hS
    have hl : [] = pre1 ++ l := hl
    obtain ⟨rfl, rfl⟩ := List.nil_eq_append_iff.mp hl
    refine ⟨_, by simp [Sys.init], .idle rfl ?_, rfl⟩
    rw [newCtx_eq]; rfl
  | @step s s' hr st ih =>
    intro l hl hS
    by_cases hnil : l = []
    · subst hnil
      rw [List.append_nil] at hl
      have K := keys_inv (.step hr st)
      have hno : ∀ e, ((reqOf pre1 t).ua, e) ∈ s'.hist → False := by
        intro e he
        obtain ⟨q, h1, h2⟩ := K.hist _ _ he
        rw [hl] at h1
        exact hS.fresh q h1 h2
      have kt := K.thr t
      rw [hl] at kt
      generalize s'.threads t = th at kt
      cases kt with
      | idle hs hn => exact ⟨_, fun e he => (hno e he).elim, .idle hs (hn hS.fresh), by rw [hl]⟩
      | get hu hw => exact absurd rfl (hS.fresh _ hu.used)
      | setter ho hs hn =>
        rw [hn hS.fresh]
        exact ⟨fun _ => false, fun e he => (hno e he).elim, .setter ho rfl (fun _ _ => rfl), by rw [hl]⟩
    obtain ⟨l0, e0, rfl⟩ : ∃ l0 e0, l = l0 ++ [e0] := by
      rcases List.eq_nil_or_concat l with rfl | ⟨a, b, rfl⟩
      · exact absurd rfl hnil
      · exact ⟨a, b, List.concat_eq_append⟩
    cases st with
    | @call t' c op h =>
      have hl : s.log ++ [.call t' op] = pre1 ++ (l0 ++ [e0]) := hl
      rw [← List.append_assoc] at hl
      have h1 := List.append_inj_left' hl rfl
      have h2 := List.append_inj_right' hl rfl
      simp only [List.cons.injEq, and_true] at h2
      subst h2
      obtain ⟨B, hB, hT, hq⟩ := ih l0 h1 hS.init
      by_cases et : t = t'
      · subst et
        obtain ⟨g, rfl⟩ := hS.gets op (by simp)
        rw [h] at hT
        cases hT with
        | idle hs hc =>
          refine ⟨c.check, hB, ?_, ?_⟩
          · simp only [put_same]
            refine .busy (gs' := getsOf t l0) ?_ ?_ (by rw [← hc])
            · rw [getsOf_snoc]; simp [getsOf]
            · rw [← hs]; exact (own_get g).own c
          · show reqOf (s.log ++ [.call t (.get g)]) t = _
            rw [reqOf_call, hq]; rfl
      · refine ⟨B, hB, ?_, ?_⟩
        · simp only [put_ne _ _ et]
          have : getsOf t (l0 ++ [.call t' op]) = getsOf t l0 := by
            rw [getsOf_snoc]
            cases op <;> simp [getsOf, Ne.symm et]
          rw [this]
          exact hT
        · show reqOf (s.log ++ [.call t' op]) t = _
          rw [reqOf_call_ne _ _ et, hq]
    | @getMiss t' op k f h =>
      obtain ⟨B, hB, hT, hq⟩ := ih _ hl hS
      refine ⟨B, hB, ?_, hq⟩
      by_cases et : t = t'
      · subst et
        simp only [put_same]
        rw [h] at hT
        cases hT with
        | busy hg ho hp => exact .busy hg ho.2.2 hp
      · simp only [put_ne _ _ et]; exact hT
    | @getHit t' op k f h e0 e' he hs =>
      obtain ⟨B, hB, hT, hq⟩ := ih _ hl hS
      refine ⟨B, hB, ?_, hq⟩
      by_cases et : t = t'
      · subst et
        simp only [put_same]
        rw [h] at hT
        cases hT with
        | busy hg ho hp =>
          have hk : k = (reqOf pre1 t).ua := ho.1
          have hbe : Below B e0 := by
            rw [hk] at he
            have := hB e' he
            have hbits : e0.bits = e'.bits := by
              have : { e0 with hkey := e'.hkey, timestamp := e'.timestamp } = e' := hs
              rw [← this]
            intro n hn hb
            rw [hbits] at hb
            exact this n hn hb
          rw [ho.2.1 e0 hbe]
          exact .busy hg ho.2.2 hp
      · simp only [put_ne _ _ et]; exact hT
    | @set t' op k e p h =>
      obtain ⟨B, hB, hT, hq⟩ := ih _ hl hS
      by_cases et : t = t'
      · subst et
        rw [h] at hT
        cases hT with
        | busy hg ho hp =>
          refine ⟨fun n => B n || e.bits.check n, ?_, ?_, hq⟩
          · intro x hx
            simp only [List.mem_append, List.mem_singleton, Prod.mk.injEq] at hx
            rcases hx with hx | ⟨-, rfl⟩
            · exact (hB x hx).mono fun n _ hb => by simp [hb]
            · intro n _ hb; simp [hb]
          · simp only [put_same]
            exact .busy hg ho.2 hp
      · refine ⟨B, ?_, ?_, hq⟩
        · intro x hx
          simp only [List.mem_append, List.mem_singleton, Prod.mk.injEq] at hx
          rcases hx with hx | ⟨hk, -⟩
          · exact hB x hx
          · exfalso
            have kt := (keys_inv hr).thr t'
            rw [h] at kt
            cases kt with
            | get hu hw =>
              refine hS.alone t' (Ne.symm et) _ ?_ (hw.1.symm.trans hk.symm)
              rw [← hl]; exact hu
        · simp only [put_ne _ _ et]; exact hT
    | @ret t' op c r h =>
      have hl : s.log ++ [.ret t' op r] = pre1 ++ (l0 ++ [e0]) := hl
      rw [← List.append_assoc] at hl
      have h1 := List.append_inj_left' hl rfl
      have h2 := List.append_inj_right' hl rfl
      simp only [List.cons.injEq, and_true] at h2
      subst h2
      obtain ⟨B, hB, hT, hq⟩ := ih l0 h1 hS.init
      have hg0 : getsOf t (l0 ++ [.ret t' op r]) = getsOf t l0 := by rw [getsOf_snoc]; simp [getsOf]
      have hq' : reqOf (s.log ++ [.ret t' op r]) t = reqOf pre1 t := by rw [reqOf_ret, hq]
      rw [hg0]
      by_cases et : t = t'
      · subst et
        rw [h] at hT
        generalize getsOf t l0 = gs at hT
        cases hT with
        | @busy gs' g p B hg ho hp =>
          refine ⟨c.check, fun e he => (hB e he).mono ho.2, ?_, hq'⟩
          simp only [put_same]
          refine .idle ho.1 ?_
          rw [hg, afterNull, List.foldl_append]
          rw [runNull_get] at hp
          have hp : (c, r) = _ := hp
          exact congrArg Prod.fst hp
        | setter hop hg hB0 =>
          refine ⟨((reqOf pre1 t).newCtx H).check, fun e he => (hB e he).mono fun n hn hb => ?_, ?_, hq'⟩
          · rw [hB0 n hn] at hb; cases hb
          · simp only [put_same]
            refine .idle ?_ ?_
            · rw [newCtx_eq]
            · rw [hg]; rfl
      · refine ⟨B, hB, ?_, hq'⟩
        simp only [put_ne _ _ et]; exact hT

/-- The state in which an event of the log happened. -/
theorem reach_last {s : Sys} (hr : Sys.Reach T H s) : ∀ l1 e l2, s.log = l1 ++ e :: l2 → ∃ s1 s2, Sys.Reach T H s1 ∧ Sys.Step T H s1 s2 ∧ s1.log = l1 ∧ s2.log = l1 ++ [e] := by
  induction hr with
  | init => intro l1 e l2 h; simp [Sys.init] at h
  | @step s s' hr st ih =>
    intro l1 e l2 h
    have key : ∀ e', s'.log = s.log ++ [e'] → ∃ s1 s2, Sys.Reach T H s1 ∧ Sys.Step T H s1 s2 ∧ s1.log = l1 ∧ s2.log = l1 ++ [e] := by
      intro e' he
      rw [he] at h
      rcases List.eq_nil_or_concat l2 with rfl | ⟨l2', x, rfl⟩
      · have h1 := List.append_inj_left' h rfl
        have h2 := List.append_inj_right' h rfl
        simp only [List.cons.injEq, and_true] at h2
        subst h2
        exact ⟨s, s', hr, st, h1, by rw [he, h1]⟩
      · rw [List.concat_eq_append, ← List.cons_append, ← List.append_assoc] at h
        exact ih l1 e l2' (List.append_inj_left' h rfl)
    cases st with
    | call op h' => exact key _ rfl
    | getMiss h' => exact ih l1 e l2 h
    | getHit h' e e' he hs => exact ih l1 _ l2 h
    | set h' => exact ih l1 e l2 h
    | ret h' => exact key _ rfl

/-- The answers of a session are those without a cache. -/
theorem sole_answer {s : Sys} (hr : Sys.Reach T H s) {t : Nat} {pre1 l post : List Event} {g : Getter} {r : Option (Option Ans)}
    (hlog : s.log = (pre1 ++ l) ++ .ret t (.get g) r :: post) (hS : Session t (reqOf pre1 t).ua pre1 l) :
    reqOf (pre1 ++ l) t = reqOf pre1 t ∧
    ∃ gs', getsOf t l = gs' ++ [g] ∧ r = ((g.prog T (afterNull T gs' ((reqOf pre1 t).newCtx H))).runNull.2).map some := by
  obtain ⟨s1, s2, hr1, st, hl1, hl2⟩ := reach_last hr _ _ _ hlog
  obtain ⟨B, hB, hT, hq⟩ := sole_inv hr1 l hl1 hS
  rw [hl1] at hq
  refine ⟨hq, ?_⟩
  rw [← hl1] at hl2
  cases st with
  | call op h' => have := List.append_inj_right' (show s1.log ++ [_] = s1.log ++ [_] from hl2) rfl; simp at this
  | getMiss h' => simp at hl2
  | getHit h' e e' he hs => simp at hl2
  | set h' => simp at hl2
  | @ret t' op c r' h' =>
    have := List.append_inj_right' (show s1.log ++ [_] = s1.log ++ [_] from hl2) rfl
    simp only [List.cons.injEq, Event.ret.injEq, and_true] at this
    obtain ⟨rfl, rfl, rfl⟩ := this
    rw [h'] at hT
    cases hT with
    | busy hg ho hp =>
      refine ⟨_, hg, ?_⟩
      rw [runNull_get] at hp
      exact congrArg Prod.snd hp
    | setter hop hg => exact absurd rfl (hop g)

end
end Verif

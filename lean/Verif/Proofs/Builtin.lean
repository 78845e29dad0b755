import Verif.Model.Builtin
import Verif.Spec.Agents
import Verif.Proofs.Cache
import Verif.Proofs.Types
/-
Executions with the built-in cache, seen through the user agents whose hash nobody else has, are executions with an honest cache.
-/
namespace Verif

section
variable {T : Tables} {H : Bytes → UInt64} {G : Bytes → Prop}

/-! ### Logs without some getter calls -/

/-- The call or return of a getter on context `t`. -/
def Event.isGet (t : Nat) : Event → Prop
  | .call t' (.get _) => t' = t
  | .ret t' (.get _) _ => t' = t
  | _ => False

/-- `l'` is `l` without some getter calls made for user agents outside `G`, and without their returns. -/
inductive Kept (G : Bytes → Prop) : List Event → List Event → Prop where
  | nil : Kept G [] []
  | keep {l l'} (h : Kept G l l') (e : Event) : Kept G (l ++ [e]) (l' ++ [e])
  | drop {l l'} (h : Kept G l l') {e : Event} {t : Nat} (he : e.isGet t) (hn : ¬ G (reqOf l t).ua) : Kept G (l ++ [e]) l'

theorem Event.isGet.req {e : Event} {t t' : Nat} (h : e.isGet t) (q : Req) : q.event t' e = q := by
  cases e with
  | call u op =>
    cases op <;> simp only [isGet] at h
    simp only [Req.event, Req.call, ite_self]
  | ret u op r => rfl

theorem Kept.reqOf {l l' : List Event} (h : Kept G l l') (t : Nat) : reqOf l' t = reqOf l t := by
  induction h with
  | nil => rfl
  | keep h e ih => rw [reqOf_snoc, reqOf_snoc, ih]
  | drop h he hn ih => rw [reqOf_snoc, ih, he.req]

theorem Kept.sublist {l l' : List Event} (h : Kept G l l') : l'.Sublist l := by
  induction h with
  | nil => exact .refl _
  | keep h e ih => exact ih.append (.refl _)
  | drop h he hn ih => exact ih.trans (List.sublist_append_left _ _)

theorem Kept.used {l l' : List Event} (h : Kept G l l') {q : Req} (hu : Used l' q) : Used l q := by
  induction h with
  | nil => exact hu
  | @keep l l' h e ih =>
    obtain ⟨pre, post, t, g, he, hq⟩ := hu
    rcases List.eq_nil_or_concat post with rfl | ⟨post', x, rfl⟩
    · have h1 := List.append_inj_left' he rfl
      have h2 := List.append_inj_right' he rfl
      simp only [List.cons.injEq, and_true] at h2
      subst h1 h2
      refine ⟨l, [], t, g, rfl, ?_⟩
      rw [← h.reqOf, hq]
    · rw [List.concat_eq_append, ← List.cons_append, ← List.append_assoc] at he
      exact (ih ⟨pre, post', t, g, List.append_inj_left' he rfl, hq⟩).append
  | drop h he hn ih => exact (ih hu).append

/-- Answers for user agents in `G` are kept. -/
theorem Kept.answer {pre l' : List Event} {t : Nat} {g : Getter} {r : Option (Option Ans)} (hg : G (Verif.reqOf pre t).ua) :
    ∀ {post : List Event}, Kept G (pre ++ .ret t (.get g) r :: post) l' → ∃ pre' post', l' = pre' ++ .ret t (.get g) r :: post' ∧ Kept G pre pre' := by
  intro post h
  generalize hl : pre ++ .ret t (.get g) r :: post = l at h
  induction h generalizing post with
  | nil => simp at hl
  | @keep l l' h e ih =>
    rcases List.eq_nil_or_concat post with rfl | ⟨post', x, rfl⟩
    · have h1 := List.append_inj_left' hl rfl
      have h2 := List.append_inj_right' hl rfl
      simp only [List.cons.injEq, and_true] at h2
      subst h1 h2
      exact ⟨l', [], rfl, h⟩
    · rw [List.concat_eq_append, ← List.cons_append, ← List.append_assoc] at hl
      obtain ⟨pre', post'', e1, e2⟩ := ih (List.append_inj_left' hl rfl)
      exact ⟨pre', post'' ++ [e], by rw [e1, List.append_assoc, List.cons_append], e2⟩
  | @drop l l' h e t' he hn ih =>
    rcases List.eq_nil_or_concat post with rfl | ⟨post', x, rfl⟩
    · have h1 := List.append_inj_left' hl rfl
      have h2 := List.append_inj_right' hl rfl
      simp only [List.cons.injEq, and_true] at h2
      subst h1 h2
      have : t = t' := he
      subst this
      exact absurd hg hn
    · rw [List.concat_eq_append, ← List.cons_append, ← List.append_assoc] at hl
      exact ih (List.append_inj_left' hl rfl)

/-- A context that waits for something other than its return was asked by a getter. -/
inductive Began (U : Prop) : BThread → Prop where
  | idle {c} : Began U (.idle c)
  | done {op x} : Began U (.busy op (.ret x))
  | crashed : Began U .crashed
  | asked {th} (h : U) : Began U th

theorem Began.mono {U V : Prop} (h : U → V) {th : BThread} (hb : Began U th) : Began V th := by
  cases hb with
  | idle => exact .idle
  | done => exact .done
  | crashed => exact .crashed
  | asked x => exact .asked (h x)

/-! ### The simulation -/

/-- A call in the execution (`p`) and in the honest one (`th`), for user agent `u`: the same if `u ∈ G`; otherwise a getter is left out, another
operation differs at most in what detection left in the context. -/
inductive BRel (G : Bytes → Prop) (u : Bytes) (op : Op) (p : Prog (Ctx × Option (Option Ans))) : Thread → Prop where
  | same (hg : G u) {a b : Nat} (hw : p.Within u (fun r => r.1.src = u) a b) : BRel G u op p (.busy op p)
  | skip (hg : ¬ G u) {g : Getter} (ho : op = .get g) {c' : Ctx} (hs : c'.src = u) {a b : Nat} (hw : p.Within u (fun r => r.1.keep = c'.keep) a b) :
      BRel G u op p (.idle c')
  | set (hg : ¬ G u) {c c' : Ctx} {r : Option (Option Ans)} (hp : p = .ret (c, r)) (hk : c.keep = c'.keep) (hs : c.src = u) :
      BRel G u op p (.busy op (.ret (c', r)))

/-- Contexts. -/
inductive TRel (H : Bytes → UInt64) (G : Bytes → Prop) (sets : List (Bytes × Ptr × CacheEntry)) (u : Bytes) : BThread → Thread → Prop where
  | idle {c c' : Ctx} (hk : c.keep = c'.keep) (hs : c.src = u) (hg : G u → c' = c) : TRel H G sets u (.idle c) (.idle c')
  | busy {op p th} (h : BRel G u op p th) : TRel H G sets u (.busy op p) th
  | reading {op k p f th} (h : BRel G u op (.get k f) th) {k' : Bytes} {e : CacheEntry} (hm : (k', p, e) ∈ sets) (hk : H k' = H k) :
      TRel H G sets u (.reading op k p f) th

/-- What is known of the cache: `sets` are all Sets so far with the addresses of their entries. -/
structure BCache (H : Bytes → UInt64) (s : BSys) (sets : List (Bytes × Ptr × CacheEntry)) : Prop where
  lt : ∀ x ∈ sets, x.2.1 < s.next
  val : ∀ x ∈ sets, SameButKey (s.cache.heap x.2.1) x.2.2 ∧ (s.cache.heap x.2.1).hkey = H x.1
  inv : s.cache.Inv
  buf : ∀ p ∈ s.cache.buf, ∃ k e, (k, p, e) ∈ sets
  key : ∀ x ∈ sets, ∃ q, Used s.log q ∧ q.ua = x.1

structure BInv (H : Bytes → UInt64) (G : Bytes → Prop) (s : BSys) (sets : List (Bytes × Ptr × CacheEntry)) (s' : Sys) : Prop where
  cache : BCache H s sets
  log : Kept G s.log s'.log
  hist : ∀ x ∈ sets, G x.1 → (x.1, x.2.2) ∈ s'.hist
  thr : ∀ t, TRel H G sets (reqOf s.log t).ua (s.threads t) (s'.threads t)

theorem SameButKey.touch {a b : CacheEntry} (h : SameButKey a b) (x : UInt64) (y : Int64) : SameButKey { a with hkey := x, timestamp := y } b := h

theorem keep_src {c c' : Ctx} (h : c.keep = c'.keep) : c.src = c'.src := congrArg Prod.fst h

/-- The operations that are no getters. -/
theorem setter_prog (op : Op) (hop : ∀ g, op ≠ .get g) {c c' : Ctx} (hk : c.keep = c'.keep) {q : Req} (hs : c.src = q.ua) :
    ∃ c1 c1' r, op.prog T H c = .ret (c1, r) ∧ op.prog T H c' = .ret (c1', r) ∧ c1.keep = c1'.keep ∧ c1.src = (q.call op).ua ∧
      ((∃ u, op = .setUserAgent u) ∨ op = .reset ∨ c' = c → c1' = c1) := by
  have h1 : c.src = c'.src := congrArg (·.1) hk
  have h2 : c.maskClientType = c'.maskClientType := congrArg (·.2.1) hk
  have h3 : c.maskDeviceType = c'.maskDeviceType := congrArg (·.2.2) hk
  cases op with
  | setUserAgent u =>
    have : c'.setUserAgent u = c.setUserAgent u := by simp [Ctx.setUserAgent, Ctx.reset0, h2, h3, Version.reset]
    exact ⟨_, _, _, rfl, rfl, congrArg Ctx.keep this.symm, rfl, fun _ => this⟩
  | reset =>
    have : c'.reset = c.reset := by simp [Ctx.reset, Ctx.reset0, Version.reset]
    exact ⟨_, _, _, rfl, rfl, congrArg Ctx.keep this.symm, rfl, fun _ => this⟩
  | setRequestedWith x =>
    refine ⟨_, _, _, rfl, rfl, ?_, ?_, ?_⟩
    · simp only [Ctx.setRequestedWith]; split <;> exact hk
    · simp only [Ctx.setRequestedWith, Req.call]
      have e : (if x = [] then q else { q with header := x }).ua = q.ua := by split <;> rfl
      rw [e]
      split <;> exact hs
    · rintro (⟨u, h⟩ | h | h)
      · cases h
      · cases h
      · rw [h]
  | filterClientType m =>
    refine ⟨_, _, _, rfl, rfl, by simp [Ctx.keep, Ctx.filterClientType, h1, h3], hs, ?_⟩
    rintro (⟨u, h⟩ | h | h)
    · cases h
    · cases h
    · rw [h]
  | filterDeviceType m =>
    refine ⟨_, _, _, rfl, rfl, by simp [Ctx.keep, Ctx.filterDeviceType, h1, h2], hs, ?_⟩
    rintro (⟨u, h⟩ | h | h)
    · cases h
    · cases h
    · rw [h]
  | get g => exact absurd rfl (hop g)

theorem bput_same (s : BSys) (t : Nat) (th : BThread) : s.put t th t = th := by simp [BSys.put]
theorem bput_ne (s : BSys) {t t' : Nat} (th : BThread) (h : t' ≠ t) : s.put t th t' = s.threads t' := by simp [BSys.put, h]

theorem TRel.mono {sets sets' : List (Bytes × Ptr × CacheEntry)} (h : ∀ x ∈ sets, x ∈ sets') {u : Bytes} {b : BThread} {th : Thread} (hr : TRel H G sets u b th) :
    TRel H G sets' u b th := by
  cases hr with
  | idle hk hs hg => exact .idle hk hs hg
  | busy h => exact .busy h
  | reading hb hm hk => exact .reading hb (h _ hm) hk

/-- Get neither changes results nor the set of entries. -/
theorem BCache.get {s : BSys} {sets : List (Bytes × Ptr × CacheEntry)} (h : BCache H s sets) (k : Bytes) (now : Int64) (th : Nat → BThread) :
    BCache H { s with threads := th, cache := (s.cache.get H k now).1 } sets ∧
      ∀ p, (s.cache.get H k now).2 = some p → ∃ k' e, (k', p, e) ∈ sets ∧ H k' = H k := by
  have he := CacheState.get_eq h.inv H k now
  constructor
  · refine ⟨h.lt, ?_, CacheState.inv_get h.inv H k now, ?_, h.key⟩
    · intro x hx
      rw [he]
      cases s.cache.lookup (H k) with
      | none => exact h.val x hx
      | some p =>
        dsimp only
        split
        · exact ⟨(h.val x hx).1.touch _ _, (h.val x hx).2⟩
        · exact h.val x hx
    · intro p hp
      rw [he] at hp
      revert hp
      cases s.cache.lookup (H k) <;> exact h.buf p
  · intro p hp
    rw [he] at hp
    cases hl : s.cache.lookup (H k) with
    | none => rw [hl] at hp; cases hp
    | some p' =>
      rw [hl] at hp
      cases hp
      obtain ⟨h1, h2⟩ := (CacheState.lookup_iff h.inv _ _).mp hl
      obtain ⟨k', e, hm⟩ := h.buf p h1
      exact ⟨k', e, hm, by rw [← (h.val _ hm).2]; exact h2⟩

/-- Set never panics. -/
theorem BCache.set {s : BSys} {sets : List (Bytes × Ptr × CacheEntry)} (h : BCache H s sets) (k : Bytes) (e : CacheEntry) (now : Int64) (hk : ∃ q, Used s.log q ∧ q.ua = k)
    (th : Nat → BThread) : ∃ c, s.cache.step H (.set k s.next e now) = some c ∧
      BCache H { s with threads := th, cache := c, next := s.next + 1 } (sets ++ [(k, s.next, e)]) := by
  have hne : ∀ p ∈ s.cache.buf, p ≠ s.next := by
    intro p hp
    obtain ⟨k', e', hm⟩ := h.buf p hp
    exact Nat.ne_of_lt (h.lt _ hm)
  have hI : ({ s.cache with heap := fun q => if q = s.next then e else s.cache.heap q } : CacheState).Inv := by
    intro hh i
    simp only
    rw [h.inv hh i]
    constructor <;> rintro ⟨q, hq, hk⟩ <;> refine ⟨q, hq, ?_⟩ <;>
      (have := hne q (List.mem_of_getElem? hq)) <;> simpa [this] using hk
  obtain ⟨c, h1, h2, h3, h4, h5⟩ := CacheState.set_spec hI H k s.next now (fun hp => hne _ hp rfl)
  refine ⟨c, h1, ?_, ?_, h2, ?_, ?_⟩
  · intro x hx
    simp only [List.mem_append, List.mem_singleton] at hx
    rcases hx with hx | rfl
    · exact Nat.lt_succ_of_lt (h.lt x hx)
    · exact Nat.lt_succ_self _
  · intro x hx
    simp only [List.mem_append, List.mem_singleton] at hx
    show SameButKey (c.heap x.2.1) x.2.2 ∧ (c.heap x.2.1).hkey = H x.1
    rw [h3]
    rcases hx with hx | rfl
    · have : x.2.1 ≠ s.next := Nat.ne_of_lt (h.lt x hx)
      simp only [this, if_false]
      exact h.val x hx
    · simp only [if_true]
      exact ⟨rfl, trivial⟩
  · intro p hp
    rcases (h5 p).mp hp with rfl | ⟨hp, -⟩
    · exact ⟨k, e, by simp⟩
    · obtain ⟨k', e', hm⟩ := h.buf p hp
      exact ⟨k', e', List.mem_append_left _ hm⟩
  · intro x hx
    simp only [List.mem_append, List.mem_singleton] at hx
    rcases hx with hx | rfl
    · exact h.key x hx
    · exact hk

theorem BCache.clean {s : BSys} {sets : List (Bytes × Ptr × CacheEntry)} (h : BCache H s sets) (now : Int64) :
    BCache H { s with cache := s.cache.clean now } sets := by
  have hh : (s.cache.clean now).heap = s.cache.heap := CacheState.cleanLoop_heap now 0 s.cache
  refine ⟨h.lt, ?_, CacheState.inv_cleanLoop now 0 s.cache h.inv, ?_, h.key⟩
  · intro x hx
    show SameButKey ((s.cache.clean now).heap x.2.1) x.2.2 ∧ ((s.cache.clean now).heap x.2.1).hkey = H x.1
    rw [hh]; exact h.val x hx
  · intro p hp
    exact h.buf p ((CacheState.mem_cleanLoop now 0 s.cache p).1 hp)

theorem BCache.sub {s s1 : BSys} {sets : List (Bytes × Ptr × CacheEntry)} (h : BCache H s sets) (h1 : s1.cache = s.cache) (h2 : s1.next = s.next) {l : List Event}
    (h3 : s1.log = s.log ++ l) : BCache H s1 sets := by
  refine ⟨?_, ?_, ?_, ?_, ?_⟩
  · rw [h2]; exact h.lt
  · rw [h1]; exact h.val
  · rw [h1]; exact h.inv
  · rw [h1]; exact h.buf
  · rw [h3]; exact fun x hx => (h.key x hx).imp fun _ h => ⟨h.1.append, h.2⟩

theorem began {s : BSys} (hr : BSys.Reach T H s) (t : Nat) : Began (Used s.log (reqOf s.log t)) (s.threads t) := by
  induction hr with
  | init => exact .idle
  | @step s s1 hr st ih =>
    have on : ∀ {t0 : Nat} {th : BThread}, (t = t0 → Began (Used s.log (reqOf s.log t)) th) → Began (Used s.log (reqOf s.log t)) (s.put t0 th t) := by
      intro t0 th h
      by_cases e : t = t0
      · subst e; rw [bput_same]; exact h rfl
      · rw [bput_ne _ _ e]; exact ih
    cases st with
    | @call t0 c op h =>
      show Began (Used (s.log ++ _) (reqOf (s.log ++ _) t)) (s.put t0 _ t)
      by_cases e : t = t0
      · subst e
        rw [bput_same, reqOf_call]
        by_cases hop : ∃ g, op = .get g
        · obtain ⟨g, rfl⟩ := hop
          exact .asked (Used.call _ _ _)
        · obtain ⟨c1, c1', r, e1, -⟩ := setter_prog (T := T) (H := H) op (fun g e => hop ⟨g, e⟩) (c := c) (c' := c) rfl (q := { ua := c.src }) rfl
          rw [e1]; exact .done
      · rw [bput_ne _ _ e, reqOf_call_ne _ _ e]
        exact ih.mono Used.append
    | miss now h hg => exact on fun e => by subst e; rw [h] at ih; cases ih with | asked h => exact .asked h
    | hit now h hg => exact on fun e => by subst e; rw [h] at ih; cases ih with | asked h => exact .asked h
    | read h => exact on fun e => by subst e; rw [h] at ih; cases ih with | asked h => exact .asked h
    | set now h hg => exact on fun e => by subst e; rw [h] at ih; cases ih with | asked h => exact .asked h
    | crash now h hg => exact on fun e => .crashed
    | clean now => exact ih
    | ret h =>
      show Began (Used (s.log ++ _) (reqOf (s.log ++ _) t)) (s.put _ _ t)
      rw [reqOf_ret]
      refine Began.mono Used.append (on fun e => .idle)

/-- A context that is about to store something was asked about its user agent. -/
theorem set_used {s : BSys} (hr : BSys.Reach T H s) {t : Nat} {op : Op} {k : Bytes} {e : CacheEntry} {p} (h : s.threads t = .busy op (.set k e p)) :
    Used s.log (reqOf s.log t) := by
  have := began hr t
  rw [h] at this
  cases this with | asked h => exact h

/-- The main step: for a set `G` of user agents with hashes of their own, executions with the built-in cache are, but for getter calls on
other user agents, executions with an honest cache. -/
theorem builtin_inv {s : BSys} (hr : BSys.Reach T H s) (hG : ∀ u, G u → Alone H s.log u) :
    ∃ sets s', Sys.Reach T H s' ∧ BInv H G s sets s' := by
  induction hr with
  | init =>
    refine ⟨[], Sys.init, .init, ⟨by simp, by simp, CacheState.inv_empty _, by simp [BSys.init, CacheState.empty], by simp⟩, .nil, by simp, ?_⟩
    intro t
    exact .idle rfl rfl fun _ => rfl
  | @step s s1 hr st ih =>
    have mono : ∀ l, s1.log = s.log ++ l → ∃ sets s', Sys.Reach T H s' ∧ BInv H G s sets s' := fun l hl =>
      ih fun u hu q hq => hG u hu q (by rw [hl]; exact hq.append)
    cases st with
    | @call t c op h =>
      obtain ⟨sets, s', hs', I⟩ := mono [.call t op] rfl
      have ht := I.thr t
      rw [h] at ht
      cases hth : s'.threads t with
      | busy op' p' => rw [hth] at ht; cases ht
      | idle c' =>
        rw [hth] at ht
        cases ht with
        | idle hk hs hg =>
        have other : ∀ {th : BThread} {s2 : Sys}, (∀ t', t' ≠ t → s2.threads t' = s'.threads t') →
            TRel H G sets ((reqOf s.log t).call op).ua th (s2.threads t) →
            ∀ t', TRel H G sets (reqOf (s.log ++ [.call t op]) t').ua (s.put t th t') (s2.threads t') := by
          intro th s2 h2 h3 t'
          by_cases e : t' = t
          · subst e; rw [bput_same, reqOf_call]; exact h3
          · rw [bput_ne _ _ e, h2 _ e, reqOf_call_ne _ _ e]; exact I.thr t'
        by_cases hop : ∃ g, op = .get g
        · obtain ⟨g, rfl⟩ := hop
          have hw := ((tr_getter (T := T) g).map (f := some)).tr c
          by_cases hgu : G (reqOf s.log t).ua
          · have := hg hgu; subst this
            refine ⟨sets, _, .step hs' (.call (.get g) hth), I.cache.sub rfl rfl rfl, I.log.keep _, I.hist, ?_⟩
            refine other (fun t' e => put_ne _ _ e) ?_
            simp only [put_same]
            refine .busy (.same hgu (a := traffic (.get g)) (b := traffic (.get g)) ?_)
            rw [hs] at hw
            exact hw.mono (fun r hr => (keep_src hr).trans hs) (Nat.le_refl _) (Nat.le_refl _)
          · refine ⟨sets, s', hs', I.cache.sub rfl rfl rfl, I.log.drop (t := t) rfl hgu, I.hist, ?_⟩
            refine other (fun t' e => rfl) ?_
            rw [hth]
            refine .busy (.skip (g := g) hgu rfl ((keep_src hk).symm.trans hs) (a := traffic (.get g)) (b := traffic (.get g)) ?_)
            rw [hs] at hw
            exact hw.mono (fun r hr => hr.trans hk) (Nat.le_refl _) (Nat.le_refl _)
        · have hop : ∀ g, op ≠ .get g := fun g e => hop ⟨g, e⟩
          obtain ⟨c1, c1', r, e1, e2, e3, e4, e5⟩ := setter_prog (T := T) (H := H) op hop hk hs
          refine ⟨sets, _, .step hs' (.call op hth), I.cache.sub rfl rfl rfl, I.log.keep _, I.hist, ?_⟩
          refine other (fun t' e => put_ne _ _ e) ?_
          simp only [put_same, e1, e2]
          by_cases hgu : G ((reqOf s.log t).call op).ua
          · have : c1' = c1 := by
              refine e5 ?_
              cases op with
              | setUserAgent u => exact .inl ⟨u, rfl⟩
              | reset => exact .inr (.inl rfl)
              | setRequestedWith x =>
                refine .inr (.inr (hg ?_))
                simp only [Req.call] at hgu
                split at hgu <;> exact hgu
              | filterClientType m => exact .inr (.inr (hg hgu))
              | filterDeviceType m => exact .inr (.inr (hg hgu))
              | get g => exact absurd rfl (hop g)
            subst this
            exact .busy (.same hgu (a := 0) (b := 0) e4)
          · exact .busy (.set hgu rfl e3 e4)
    | @miss t op k f now h hg =>
      obtain ⟨sets, s', hs', I⟩ := mono [] (by simp)
      have ht := I.thr t
      rw [h] at ht
      obtain ⟨hc, -⟩ := I.cache.get k now (s.put t (.busy op (f .miss)))
      generalize hth : s'.threads t = th at ht
      cases ht with
      | busy hb =>
      cases hb with
      | same hg hw =>
        refine ⟨sets, _, .step hs' (.getMiss hth), hc, I.log, I.hist, ?_⟩
        intro t'
        by_cases e : t' = t
        · subst e; simp only [bput_same]; simp only [put_same]; exact .busy (.same hg (hw.2.2 .miss))
        · simp only [bput_ne _ _ e]; simp only [put_ne _ _ e]; exact I.thr t'
      | skip hg ho hs hw =>
        refine ⟨sets, s', hs', hc, I.log, I.hist, ?_⟩
        intro t'
        by_cases e : t' = t
        · subst e; simp only [bput_same, hth]; exact .busy (.skip hg ho hs (hw.2.2 .miss))
        · simp only [bput_ne _ _ e]; exact I.thr t'
      | set hg hp => cases hp
    | @hit t op k f p now h hg =>
      obtain ⟨sets, s', hs', I⟩ := mono [] (by simp)
      have ht := I.thr t
      rw [h] at ht
      obtain ⟨hc, hf⟩ := I.cache.get k now (s.put t (.reading op k p f))
      obtain ⟨k', e, hm, hk⟩ := hf p hg
      generalize hth : s'.threads t = th at ht
      cases ht with
      | busy hb =>
        refine ⟨sets, s', hs', hc, I.log, I.hist, ?_⟩
        intro t'
        by_cases e : t' = t
        · subst e; simp only [bput_same, hth]; exact .reading hb hm hk
        · simp only [bput_ne _ _ e]; exact I.thr t'
    | @read t op k p f h =>
      obtain ⟨sets, s', hs', I⟩ := mono [] (by simp)
      have ht := I.thr t
      rw [h] at ht
      have hc : BCache H { s with threads := s.put t (.busy op (f (.hit (s.cache.heap p)))) } sets := I.cache.sub rfl rfl (List.append_nil _).symm
      generalize hth : s'.threads t = th at ht
      cases ht with
      | @reading _ _ _ _ _ hb k' e' hm hk =>
      cases hb with
      | same hg hw =>
        have hku := hw.1
        have hk' : k' = k := by
          rw [hku] at hk ⊢
          obtain ⟨q, hq, hqk⟩ := I.cache.key _ hm
          have hqk : q.ua = k' := hqk
          rw [← hqk] at hk ⊢
          exact hG _ hg q hq hk
        subst hk'
        refine ⟨sets, _, .step hs' (.getHit hth (s.cache.heap p) e' (I.hist _ hm (by rw [hku]; exact hg)) (I.cache.val _ hm).1), hc, I.log, I.hist, ?_⟩
        intro t'
        by_cases e : t' = t
        · subst e; simp only [bput_same]; simp only [put_same]; exact .busy (.same hg (hw.2.2 _))
        · simp only [bput_ne _ _ e]; simp only [put_ne _ _ e]; exact I.thr t'
      | skip hg ho hs hw =>
        refine ⟨sets, s', hs', hc, I.log, I.hist, ?_⟩
        intro t'
        by_cases e : t' = t
        · subst e; simp only [bput_same, hth]; exact .busy (.skip hg ho hs (hw.2.2 _))
        · simp only [bput_ne _ _ e]; exact I.thr t'
      | set hg hp => cases hp
    | @set t op k e p c now h hs =>
      obtain ⟨sets, s', hs', I⟩ := mono [] (by simp)
      have ht := I.thr t
      rw [h] at ht
      generalize hth : s'.threads t = th at ht
      cases ht with
      | busy hb =>
      have hm : ∀ x ∈ sets, x ∈ sets ++ [(k, s.next, e)] := fun x hx => List.mem_append_left _ hx
      have hcache : k = (reqOf s.log t).ua → BCache H { s with threads := s.put t (.busy op p), cache := c, next := s.next + 1 } (sets ++ [(k, s.next, e)]) := by
        intro hk
        obtain ⟨c', h1, h2⟩ := I.cache.set k e now ⟨_, set_used hr h, hk.symm⟩ (s.put t (.busy op p))
        rw [hs] at h1; cases h1
        exact h2
      cases hb with
      | same hg hw =>
        refine ⟨_, _, .step hs' (.set hth), hcache hw.1, I.log, ?_, ?_⟩
        · intro x hx hgx
          simp only [List.mem_append, List.mem_singleton] at hx ⊢
          rcases hx with hx | rfl
          · exact .inl (I.hist x hx hgx)
          · exact .inr rfl
        · intro t'
          by_cases e : t' = t
          · subst e; simp only [bput_same]; simp only [put_same]; exact .busy (.same hg hw.2.2)
          · simp only [bput_ne _ _ e]; simp only [put_ne _ _ e]; exact (I.thr t').mono hm
      | skip hg ho hs1 hw =>
        refine ⟨_, s', hs', hcache hw.1, I.log, ?_, ?_⟩
        · intro x hx hgx
          simp only [List.mem_append, List.mem_singleton] at hx
          rcases hx with hx | rfl
          · exact I.hist x hx hgx
          · rw [hw.1] at hgx; exact absurd hgx hg
        · intro t'
          by_cases e : t' = t
          · subst e; simp only [bput_same, hth]; exact .busy (.skip hg ho hs1 hw.2.2)
          · simp only [bput_ne _ _ e]; exact (I.thr t').mono hm
      | set hg hp => cases hp
    | @crash t op k e p now h hs =>
      obtain ⟨sets, s', hs', I⟩ := mono [] (by simp)
      have ht := I.thr t
      rw [h] at ht
      generalize hth : s'.threads t = th at ht
      exfalso
      cases ht with
      | busy hb =>
      have hno : k = (reqOf s.log t).ua → False := by
        intro hk
        obtain ⟨c', h1, -⟩ := I.cache.set k e now ⟨_, set_used hr h, hk.symm⟩ s.threads
        rw [hs] at h1; cases h1
      cases hb with
      | same hg hw => exact hno hw.1
      | skip hg ho hs1 hw => exact hno hw.1
      | set hg hp => cases hp
    | clean now =>
      obtain ⟨sets, s', hs', I⟩ := mono [] (by simp)
      exact ⟨sets, s', hs', I.cache.clean now, I.log, I.hist, I.thr⟩
    | @ret t op c r h =>
      obtain ⟨sets, s', hs', I⟩ := mono [.ret t op r] rfl
      have ht := I.thr t
      rw [h] at ht
      have hc : BCache H { s with threads := s.put t (.idle c), log := s.log ++ [.ret t op r] } sets := I.cache.sub rfl rfl rfl
      generalize hth : s'.threads t = th at ht
      cases ht with
      | busy hb =>
      cases hb with
      | same hg hw =>
        refine ⟨sets, _, .step hs' (.ret hth), hc, I.log.keep _, I.hist, ?_⟩
        intro t'
        show TRel H G sets (reqOf (s.log ++ [.ret t op r]) t').ua _ _
        rw [reqOf_ret]
        by_cases e : t' = t
        · subst e; simp only [put_same, bput_same]; exact .idle rfl hw fun _ => rfl
        · simp only [put_ne _ _ e, bput_ne _ _ e]; exact I.thr t'
      | @skip hg g ho c' hs a b hw =>
        subst ho
        refine ⟨sets, s', hs', hc, I.log.drop (t := t) rfl hg, I.hist, ?_⟩
        intro t'
        show TRel H G sets (reqOf (s.log ++ [.ret t (.get g) r]) t').ua _ _
        rw [reqOf_ret]
        by_cases e : t' = t
        · subst e
          simp only [bput_same, hth]
          have hw : c.keep = c'.keep := hw
          exact .idle hw ((keep_src hw).trans hs) fun h => absurd h hg
        · simp only [bput_ne _ _ e]; exact I.thr t'
      | @set hg c1 c' r' hp hk hs =>
        cases hp
        refine ⟨sets, _, .step hs' (.ret hth), hc, I.log.keep _, I.hist, ?_⟩
        intro t'
        show TRel H G sets (reqOf (s.log ++ [.ret t op r]) t').ua _ _
        rw [reqOf_ret]
        by_cases e : t' = t
        · subst e
          simp only [put_same, bput_same]
          exact .idle hk hs fun h => absurd h hg
        · simp only [put_ne _ _ e, bput_ne _ _ e]; exact I.thr t'

/-- A prefix of the log of an execution is the log of an execution. -/
theorem breach_prefix {s : BSys} (hr : BSys.Reach T H s) : ∀ l1 l2, s.log = l1 ++ l2 → ∃ s', BSys.Reach T H s' ∧ s'.log = l1 := by
  induction hr with
  | init =>
    intro l1 l2 h
    have : l1 = [] := by
      have : ([] : List Event) = l1 ++ l2 := h
      cases l1 with
      | nil => rfl
      | cons _ _ => cases this
    subst this
    exact ⟨_, .init, rfl⟩
  | @step s s1 hr st ih =>
    intro l1 l2 h
    have hlog : s1.log = s.log ∨ ∃ e, s1.log = s.log ++ [e] := by
      cases st <;> first | exact .inl rfl | exact .inr ⟨_, rfl⟩
    rcases hlog with e | ⟨x, e⟩
    · exact ih l1 l2 (by rw [← e]; exact h)
    · rcases List.eq_nil_or_concat l2 with rfl | ⟨l2', y, rfl⟩
      · exact ⟨s1, .step hr st, by rw [h, List.append_nil]⟩
      · rw [e, List.concat_eq_append, ← List.append_assoc] at h
        exact ih l1 l2' (List.append_inj_left' h rfl)

end
end Verif

import Verif.Proofs.Uncached
import Verif.Spec.Trace
/-
The invariant of the whole system: every interleaving of any number of contexts over an honest cache.
-/
namespace Verif

section
variable {T : Tables} {H : Bytes → UInt64} {MC : Bytes → ClientType → Prop} {MD : Bytes → DeviceType → Prop}

theorem reqOf_snoc (log : List Event) (t : Nat) (e : Event) : reqOf (log ++ [e]) t = (reqOf log t).event t e := by
  simp [reqOf]

theorem Used.append {log log' : List Event} {q : Req} (h : Used log q) : Used (log ++ log') q := by
  obtain ⟨pre, post, t, g, h1, h2⟩ := h
  exact ⟨pre, post ++ log', t, g, by simp [h1], h2⟩

theorem Used.call (log : List Event) (t : Nat) (g : Getter) : Used (log ++ [.call t (.get g)]) (reqOf log t) :=
  ⟨log, [], t, g, rfl, rfl⟩

theorem Used.of_ret {log : List Event} {t : Nat} {op : Op} {r : Option (Option Ans)} {q : Req} (h : Used (log ++ [.ret t op r]) q) : Used log q := by
  obtain ⟨pre, post, t', g, h1, h2⟩ := h
  rcases List.eq_nil_or_concat post with rfl | ⟨post', e, rfl⟩
  · have := List.append_inj_right' h1 rfl
    simp at this
  · rw [List.concat_eq_append, ← List.cons_append, ← List.append_assoc] at h1
    have := List.append_inj_left' h1 rfl
    exact ⟨pre, post', t', g, this, h2⟩

/-- What an operation must establish. -/
def PostOp (T : Tables) (MC : Bytes → ClientType → Prop) (MD : Bytes → DeviceType → Prop) (H : Bytes → UInt64) (q : Req) :
    Op → Option (Option Ans) → Ctx → Prop
  | .get g, r, c => ∃ x : Option Ans, r = x.map some ∧ PostG T MC MD H q g x c
  | _, r, c => r = some none ∧ CInv T MC MD H q c

theorem PostOp.cinv {q : Req} {op : Op} {r : Option (Option Ans)} {c : Ctx} (h : PostOp T MC MD H q op r c) : CInv T MC MD H q c := by
  cases op with
  | get g => obtain ⟨x, _, h⟩ := h; exact h.cinv
  | _ => exact h.2

theorem CInv.setUserAgent {q : Req} {c : Ctx} (h : CInv T MC MD H q c) (ua : Bytes) :
    CInv T MC MD H (q.call (.setUserAgent ua)) (c.setUserAgent ua) := by
  refine ⟨rfl, ?_, ?_, ?_, inv_zero rfl ?_ ?_ rfl rfl, fun _ => ?_, fun _ => ?_, fun _ => ?_⟩
  · exact h.mc
  · exact h.md
  · rfl
  · simp [eC, ent, CacheEntry.fromCtx, zeroC, Ctx.setUserAgent, Ctx.reset0]
  · simp [eO, ent, CacheEntry.fromCtx, zeroO, Ctx.setUserAgent, Ctx.reset0]
  · exact .zero
  · exact .zero
  · exact .zero

theorem CInv.reset {c : Ctx} : CInv T MC MD H {} c.reset := by
  refine ⟨rfl, rfl, rfl, rfl, inv_zero rfl ?_ ?_ rfl rfl, fun _ => ?_, fun _ => ?_, fun _ => ?_⟩
  · simp [eC, ent, CacheEntry.fromCtx, zeroC, Ctx.reset, Ctx.reset0]
  · simp [eO, ent, CacheEntry.fromCtx, zeroO, Ctx.reset, Ctx.reset0]
  · exact .zero
  · exact .zero
  · exact .zero

theorem CInv.setRequestedWith {q : Req} {c : Ctx} (h : CInv T MC MD H q c) (x : Bytes) :
    CInv T MC MD H (q.call (.setRequestedWith x)) (c.setRequestedWith H x) := by
  unfold Ctx.setRequestedWith
  by_cases hx : x = []
  · subst hx; exact h
  · have hl : x.length > 0 := List.length_pos_iff.mpr hx
    rw [if_pos hl]
    simp only [Req.call, if_neg hx]
    refine ⟨h.src, h.mc, h.md, ?_, h.inv, h.bv, h.ev, h.ov⟩
    simp [hx]

/-- Any operation on a context meeting the invariant. -/
theorem safe_op {q : Req} {c : Ctx} (op : Op) (h : CInv T MC MD H q c) (hm : ∀ g, op = .get g → MC q.ua q.mc ∧ MD q.ua q.md) :
    (op.prog T H c).Safe (RG T MC MD) (Inv T MC MD) (fun r => PostOp T MC MD H (q.call op) op r.2 r.1) := by
  cases op with
  | setUserAgent ua => exact ⟨rfl, h.setUserAgent ua⟩
  | setRequestedWith x => exact ⟨rfl, h.setRequestedWith x⟩
  | filterClientType m => exact ⟨rfl, h.src, rfl, h.md, h.hint, h.inv, h.bv, h.ev, h.ov⟩
  | filterDeviceType m => exact ⟨rfl, h.src, h.mc, rfl, h.hint, h.inv, h.bv, h.ev, h.ov⟩
  | reset => exact ⟨rfl, CInv.reset⟩
  | get g =>
    exact (tri_getter (hm g rfl).1 (hm g rfl).2 g).map (post' := PostOp T MC MD H q (.get g)) (fun r c hr => ⟨r, rfl, hr⟩) c h

/-- What a logged answer satisfies. -/
def AnsOK (T : Tables) (MC : Bytes → ClientType → Prop) (MD : Bytes → DeviceType → Prop) (H : Bytes → UInt64) (log : List Event) : Prop :=
  ∀ pre post t g r, log = pre ++ .ret t (.get g) r :: post → ∃ c, PostOp T MC MD H (reqOf pre t) (.get g) r c

structure SysInv (T : Tables) (MC : Bytes → ClientType → Prop) (MD : Bytes → DeviceType → Prop) (H : Bytes → UInt64) (s : Sys) : Prop where
  hist : ∀ k e, (k, e) ∈ s.hist → Inv T MC MD k e
  idle : ∀ t c, s.threads t = .idle c → CInv T MC MD H (reqOf s.log t) c
  busy : ∀ t op p, s.threads t = .busy op p →
    p.Safe (RG T MC MD) (Inv T MC MD) (fun r => PostOp T MC MD H (reqOf s.log t) op r.2 r.1)
  ans : AnsOK T MC MD H s.log

theorem put_same (s : Sys) (t : Nat) (th : Thread) : s.put t th t = th := by simp [Sys.put]
theorem put_ne (s : Sys) {t t' : Nat} (th : Thread) (h : t' ≠ t) : s.put t th t' = s.threads t' := by simp [Sys.put, h]

theorem reqOf_ret (log : List Event) (t t' : Nat) (op : Op) (r : Option (Option Ans)) : reqOf (log ++ [.ret t' op r]) t = reqOf log t := by
  rw [reqOf_snoc]; rfl

theorem reqOf_call_ne (log : List Event) {t t' : Nat} (op : Op) (h : t' ≠ t) : reqOf (log ++ [.call t op]) t' = reqOf log t' := by
  rw [reqOf_snoc]; simp [Req.event, Ne.symm h]

theorem reqOf_call (log : List Event) (t : Nat) (op : Op) : reqOf (log ++ [.call t op]) t = (reqOf log t).call op := by
  rw [reqOf_snoc]; simp [Req.event]

theorem AnsOK.call {log : List Event} (h : AnsOK T MC MD H log) (t : Nat) (op : Op) : AnsOK T MC MD H (log ++ [.call t op]) := by
  intro pre post t' g r he
  rcases List.eq_nil_or_concat post with rfl | ⟨post', e, rfl⟩
  · have := List.append_inj_right' he rfl
    simp at this
  · rw [List.concat_eq_append, ← List.cons_append, ← List.append_assoc] at he
    exact h pre post' t' g r (List.append_inj_left' he rfl)

theorem AnsOK.ret {log : List Event} (h : AnsOK T MC MD H log) {t : Nat} {op : Op} {r : Option (Option Ans)} {c : Ctx}
    (hp : PostOp T MC MD H (reqOf log t) op r c) : AnsOK T MC MD H (log ++ [.ret t op r]) := by
  intro pre post t' g r' he
  rcases List.eq_nil_or_concat post with rfl | ⟨post', e, rfl⟩
  · have h1 := List.append_inj_right' he rfl
    have h2 := List.append_inj_left' he rfl
    simp at h1
    obtain ⟨rfl, rfl, rfl⟩ := h1
    subst h2
    exact ⟨c, hp⟩
  · rw [List.concat_eq_append, ← List.cons_append, ← List.append_assoc] at he
    exact h pre post' t' g r' (List.append_inj_left' he rfl)

/-- Reachable states meet the invariant for any filters covering those queried so far. -/
theorem sys_inv {s : Sys} (hr : Sys.Reach T H s) (hM : ∀ q, Used s.log q → MC q.ua q.mc ∧ MD q.ua q.md) : SysInv T MC MD H s := by
  induction hr with
  | init =>
    refine ⟨by simp [Sys.init], ?_, by simp [Sys.init], ?_⟩
    · intro t c h
      simp [Sys.init] at h
      subst h
      exact cinv_fresh (T := T) (H := H) MC MD {}
    · intro pre post t g r h
      simp [Sys.init] at h
  | @step s s' hr st ih =>
    cases st with
    | @call t c op h =>
      have I := ih fun q hq => hM q hq.append
      refine ⟨I.hist, ?_, ?_, I.ans.call t op⟩
      · intro t' c' h'
        by_cases e : t' = t
        · subst e; simp only [put_same] at h'; cases h'
        · simp only [put_ne _ _ e] at h'
          show CInv T MC MD H (reqOf (s.log ++ [.call t op]) t') c'
          rw [reqOf_call_ne _ _ e]
          exact I.idle t' c' h'
      · intro t' op' p h'
        by_cases e : t' = t
        · subst e
          simp only [put_same] at h'
          cases h'
          show Prog.Safe _ _ (fun r : Ctx × Option (Option Ans) => PostOp T MC MD H (reqOf (s.log ++ [.call t' op]) t') op r.2 r.1) _
          rw [reqOf_call]
          refine safe_op op (I.idle t' c h) ?_
          rintro g rfl
          exact hM _ (Used.call s.log t' g)
        · simp only [put_ne _ _ e] at h'
          show Prog.Safe _ _ (fun r : Ctx × Option (Option Ans) => PostOp T MC MD H (reqOf (s.log ++ [.call t op]) t') op' r.2 r.1) _
          rw [reqOf_call_ne _ _ e]
          exact I.busy t' op' p h'
    | @getMiss t op k f h =>
      have I := ih hM
      refine ⟨I.hist, ?_, ?_, I.ans⟩
      · intro t' c' h'
        by_cases e : t' = t
        · subst e; simp only [put_same] at h'; cases h'
        · simp only [put_ne _ _ e] at h'
          exact I.idle t' c' h'
      · intro t' op' p h'
        by_cases e : t' = t
        · subst e
          simp only [put_same] at h'
          cases h'
          exact I.busy t' op _ h .miss trivial
        · simp only [put_ne _ _ e] at h'
          exact I.busy t' op' p h'
    | @getHit t op k f h e0 e' he hs =>
      have I := ih hM
      refine ⟨I.hist, ?_, ?_, I.ans⟩
      · intro t' c' h'
        by_cases e : t' = t
        · subst e; simp only [put_same] at h'; cases h'
        · simp only [put_ne _ _ e] at h'
          exact I.idle t' c' h'
      · intro t' op' p h'
        by_cases e : t' = t
        · subst e
          simp only [put_same] at h'
          cases h'
          exact I.busy t' op _ h (.hit e0) ((I.hist k e' he).sameButKey hs)
        · simp only [put_ne _ _ e] at h'
          exact I.busy t' op' p h'
    | @set t op k e0 p h =>
      have I := ih hM
      have hb := I.busy t op _ h
      refine ⟨?_, ?_, ?_, I.ans⟩
      · intro k' e' h'
        simp only [List.mem_append, List.mem_singleton] at h'
        rcases h' with h' | h'
        · exact I.hist k' e' h'
        · cases h'; exact hb.1
      · intro t' c' h'
        by_cases e : t' = t
        · subst e; simp only [put_same] at h'; cases h'
        · simp only [put_ne _ _ e] at h'
          exact I.idle t' c' h'
      · intro t' op' p' h'
        by_cases e : t' = t
        · subst e
          simp only [put_same] at h'
          cases h'
          exact hb.2
        · simp only [put_ne _ _ e] at h'
          exact I.busy t' op' p' h'
    | @ret t op c r h =>
      have I := ih fun q hq => hM q hq.append
      have hb : PostOp T MC MD H (reqOf s.log t) op r c := I.busy t op _ h
      refine ⟨I.hist, ?_, ?_, I.ans.ret hb⟩
      · intro t' c' h'
        show CInv T MC MD H (reqOf (s.log ++ [.ret t op r]) t') c'
        rw [reqOf_ret]
        by_cases e : t' = t
        · subst e; simp only [put_same] at h'; cases h'; exact hb.cinv
        · simp only [put_ne _ _ e] at h'
          exact I.idle t' c' h'
      · intro t' op' p' h'
        show Prog.Safe _ _ (fun r' : Ctx × Option (Option Ans) => PostOp T MC MD H (reqOf (s.log ++ [.ret t op r]) t') op' r'.2 r'.1) _
        rw [reqOf_ret]
        by_cases e : t' = t
        · subst e; simp only [put_same] at h'; cases h'
        · simp only [put_ne _ _ e] at h'
          exact I.busy t' op' p' h'

/-- A prefix of the log of an execution is the log of an execution. -/
theorem reach_prefix {s : Sys} (hr : Sys.Reach T H s) : ∀ l1 l2, s.log = l1 ++ l2 → ∃ s', Sys.Reach T H s' ∧ s'.log = l1 := by
  induction hr with
  | init =>
    intro l1 l2 h
    have h : [] = l1 ++ l2 := h
    refine ⟨Sys.init, .init, ?_⟩
    rw [List.nil_eq_append_iff] at h
    exact h.1.symm
  | @step s s' hr st ih =>
    intro l1 l2 h
    have key : ∀ e, s'.log = s.log ++ [e] → ∃ s'', Sys.Reach T H s'' ∧ s''.log = l1 := by
      intro e he
      rcases List.eq_nil_or_concat l2 with rfl | ⟨l2', e', rfl⟩
      · exact ⟨s', .step hr st, by simpa using h⟩
      · rw [he, List.concat_eq_append, ← List.append_assoc] at h
        exact ih l1 l2' (List.append_inj_left' h rfl)
    cases st with
    | call op h' => exact key _ rfl
    | getMiss h' => exact ih l1 l2 h
    | getHit h' e e' he hs => exact ih l1 l2 h
    | set h' => exact ih l1 l2 h
    | ret h' => exact key _ rfl

end
end Verif

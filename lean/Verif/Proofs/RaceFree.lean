import Verif.Proofs.RaceStep
/-
Every reachable state satisfies the invariant.
-/
namespace Verif.Race

theorem Agree.noInit {s t V} (A : Agree s t V) : Agree s t { V with init := False } :=
  ⟨A.held, A.ctx, A.mine, A.pub, A.res, A.box, A.boxr, fun h => h.elim⟩

/-- A goroutine may know more contexts than it has used so far. -/
theorem Agree.addCtx {s t V c} (A : Agree s t V) (hc : s.ctx c = .mine t) : Agree s t { V with ctx := fun c' => c' = c ∨ V.ctx c' } :=
  ⟨A.held, fun c' h => by rcases h with rfl | h <;> first | exact hc | exact A.ctx _ h, A.mine, A.pub, A.res, A.box, A.boxr, A.init⟩

theorem inv_init : Inv .init := by
  refine ⟨⟨fun i u w l h => ?_, fun i j t u w w' l h hi => ?_, fun k e h => ?_, fun b k h => ?_, fun t h k hk => ?_⟩, fun t r h => ?_⟩
  · simp only [State.init] at h; cases h
  · simp only [State.init] at hi; cases hi
  · simp only [State.init] at h; cases h
  · simp only [State.init] at h; cases h
  · simp only [State.init] at hk; cases hk
  · simp only [State.init] at h
    split at h
    · rename_i ht
      subst ht
      injection h with h
      subst h
      refine ⟨⟨none, fun _ => False, fun _ => False, fun _ _ => False, fun _ => False, fun b => b = 0, fun _ => False, True⟩, ?_, ?_⟩
      · refine ⟨fun k => ?_, fun _ h => h.elim, fun _ h => h.elim, fun _ _ h => h.elim, fun _ h => h.elim, fun b h => ?_, fun _ h => h.elim,
          fun _ => ⟨fun u hu => ?_, fun i u x h => ?_⟩⟩
        · constructor <;> intro h <;> cases h
        · show (if b = 0 then Own.mine 0 else .free) = _; rw [if_pos h]
        · show (if u = 0 then _ else none) = none; rw [if_neg hu]
        · cases h
      · simp only [WF, View.May]
        simp
    · cases h

theorem wf_detect {V : View} {c r} (hc : V.ctx c) (hh : V.held = none) (W : WF { V with init := False } r) : WF V (detect c ++ r) :=
  ⟨.inr rfl, hc, hh, hc, W⟩

theorem wf_reads {V : View} {r k} (hk : V.held = some k) (W : WF V r) : ∀ {es : List Nat}, (∀ e ∈ es, V.pub e k) →
    WF V (es.flatMap (fun e => [.acc false (.stamp e), .acc false (.hkey e)]) ++ r)
  | [], _ => W
  | e :: es, h => ⟨.inr ⟨k, h e (.head _), hk⟩, .inr ⟨k, h e (.head _), hk⟩, wf_reads hk W fun e' he => h e' (.tail _ he)⟩

theorem wf_stamps {V : View} {r k} (hk : V.held = some k) (W : WF V r) : ∀ {es : List Nat}, (∀ e ∈ es, V.pub e k) →
    WF V (es.map (fun e => .acc false (.stamp e)) ++ r)
  | [], _ => W
  | e :: es, h => ⟨.inr ⟨k, h e (.head _), hk⟩, wf_stamps hk W fun e' he => h e' (.tail _ he)⟩

/-- Under the lock a goroutine knows the entries of the table. -/
theorem Agree.addPub {s t V k} (B : Base s) (A : Agree s t V) (hk : s.holder k = some t) :
    Agree s t { V with pub := fun e k' => (k' = k ∧ e ∈ s.buf k) ∨ V.pub e k', res := fun e => e ∈ s.buf k ∨ V.res e } := by
  refine ⟨A.held, A.ctx, A.mine, fun e k' h => ?_, fun e h => ?_, A.box, A.boxr, A.init⟩
  · rcases h with ⟨rfl, h⟩ | h
    · exact B.buf _ _ h
    · exact A.pub _ _ h
  · rcases h with h | h
    · have hs := B.buf _ _ h
      refine ⟨⟨k, hs⟩, fun i u hi => ?_⟩
      have K := B.know i u true _ hi
      simp only [State.guard, hs, Own.guard, State.Knows, State.KnowsM, hk] at K
      exact K trivial
    · exact A.res e h

theorem inv_step {s s' : State} {t} (I : Inv s) (st : Step false t s s') : Inv s' := by
  cases st with
  | newCtx ht hc =>
    obtain ⟨V, A, W⟩ := I.2 _ _ ht
    exact I.newCtx ht hc A ⟨.inl rfl, W⟩
  | acquire ht hc =>
    obtain ⟨V, A, W⟩ := I.2 _ _ ht
    exact I.get ht hc A W
  | release ht hc =>
    obtain ⟨V, A, W⟩ := I.2 _ _ ht
    refine I.goOn ht ?_ rfl rfl rfl rfl rfl rfl rfl rfl
    exact ⟨_, A.addCtx hc, .inl rfl, .inl rfl, W⟩
  | method ht hc =>
    obtain ⟨V, A, W⟩ := I.2 _ _ ht
    refine I.goOn ht ?_ rfl rfl rfl rfl rfl rfl rfl rfl
    exact ⟨_, A.addCtx hc, .inr rfl, .inl rfl, W⟩
  | getter ht hc =>
    obtain ⟨V, A, W⟩ := I.2 _ _ ht
    refine I.goOn ht ?_ rfl rfl rfl rfl rfl rfl rfl rfl
    exact ⟨_, A.addCtx hc, .inl rfl, W, .inl rfl, W⟩
  | setCache ht hb =>
    obtain ⟨V, A, W⟩ := I.2 _ _ ht
    exact I.newBox ht hb A ⟨.inl (.inl rfl), .inl rfl, W⟩
  | spawn ht hu =>
    obtain ⟨V, A, W⟩ := I.2 _ _ ht
    exact I.spawn ht hu A.noInit (fun h => h) W rfl
  | send ht hc =>
    obtain ⟨V, A, W⟩ := I.2 _ _ ht
    exact I.put ht (A.addCtx hc) (.inl rfl) W
  | @hand c u ht hu hc =>
    obtain ⟨V, A, W⟩ := I.2 _ _ ht
    have live : s.todo t ≠ none := by rw [ht]; exact fun e => by cases e
    have hne : u ≠ t := fun e => live (e ▸ hu)
    have I1 := I.spawn (r := []) (ru := []) ht hu A.noInit (fun h => h) W rfl
    refine I1.give (t := t) (u := u) ((upd_ne _ _ (Ne.symm hne)).trans (upd_same _ _ _)) hc hne fun i v w h => ?_
    rcases get_cases h with h | ⟨_, h⟩
    · have K := I.1.know i v w _ h
      simp only [State.guard, hc] at K
      exact Seen.go K
    · cases (Prod.mk.inj h).2
  | acc ht =>
    obtain ⟨V, A, W⟩ := I.2 _ _ ht
    exact I.acc ht A W.1 W.2
  | lock ht hk =>
    obtain ⟨V, A, W⟩ := I.2 _ _ ht
    exact I.lock ht A W.1 hk W.2
  | unlock ht =>
    obtain ⟨V, A, W⟩ := I.2 _ _ ht
    exact I.unlock ht A W.1 W.2
  | onceFirst ht ho =>
    obtain ⟨V, A, h, W⟩ := I.2 _ _ ht
    refine I.goOn ht ?_ rfl rfl rfl rfl rfl rfl rfl rfl
    refine ⟨_, A.noInit, h, rfl, rfl, rfl, ?_⟩
    refine WF.le ?_ W
    exact ⟨h, fun _ => id, fun _ => id, fun _ _ => id, fun _ => id, fun _ => id, fun _ => id, id⟩
  | onceEnd ht =>
    obtain ⟨V, A, h, W⟩ := I.2 _ _ ht
    refine I.goOn ht ?_ rfl rfl rfl rfl rfl rfl rfl rfl
    exact ⟨_, A, W⟩
  | onceSkip ht ho =>
    obtain ⟨V, A, h, W⟩ := I.2 _ _ ht
    refine I.goOn ht ?_ rfl rfl rfl rfl rfl rfl rfl rfl
    exact ⟨_, A.noInit, W⟩
  | goClean ht hu =>
    obtain ⟨V, A, W⟩ := I.2 _ _ ht
    exact I.spawn ht hu A.noInit (fun h => h) W ⟨rfl, rfl⟩
  | find ht hc =>
    obtain ⟨V, A, h, hctx, W⟩ := I.2 _ _ ht
    obtain ⟨k', hb⟩ := I.1.cur _ _ hc
    refine I.load ht hb A.noInit ⟨.inr ⟨rfl, .inl rfl⟩, hctx, h, h, rfl, hctx, ?_⟩
    refine WF.le ?_ W
    exact ⟨h, fun _ => id, fun _ => id, fun _ _ => id, fun _ => id, fun _ => id, fun _ => .inr, id⟩
  | miss ht =>
    obtain ⟨V, A, h, hctx, W⟩ := I.2 _ _ ht
    exact I.acc ht A h ⟨h, wf_detect hctx rfl W⟩
  | hit ht he =>
    obtain ⟨V, A, h, hctx, W⟩ := I.2 _ _ ht
    have hk := (A.held _).2 h
    refine I.acc ht (A.addPub I.1 hk) h ⟨.inr ⟨_, .inl ⟨rfl, he⟩, h⟩, h, h, .inr ⟨rfl, .inl he⟩, hctx, ?_⟩
    refine WF.le ?_ W
    exact ⟨rfl, fun _ => id, fun _ => id, fun _ _ => .inr, fun _ => .inr, fun _ => id, fun _ => id, fun h => h.elim⟩
  | stale ht he =>
    obtain ⟨V, A, h, hctx, W⟩ := I.2 _ _ ht
    have hk := (A.held _).2 h
    refine I.acc ht (A.addPub I.1 hk) h ⟨.inr ⟨_, .inl ⟨rfl, he⟩, h⟩, h, h, .inr ⟨rfl, .inl he⟩, wf_detect hctx rfl ?_⟩
    refine WF.le ?_ W
    exact ⟨rfl, fun _ => id, fun _ => id, fun _ _ => .inr, fun _ => .inr, fun _ => id, fun _ => id, id⟩
  | findOwn ht hc =>
    obtain ⟨V, A, h, hctx, W⟩ := I.2 _ _ ht
    obtain ⟨k', hb⟩ := I.1.cur _ _ hc
    refine I.load ht hb A.noInit ⟨.inr ⟨rfl, .inl rfl⟩, hctx, h, rfl, hctx, ?_⟩
    refine WF.le ?_ W
    exact ⟨h, fun _ => id, fun _ => id, fun _ _ => id, fun _ => id, fun _ => id, fun _ => .inr, id⟩
  | hitOwn ht he =>
    obtain ⟨V, A, h, hctx, W⟩ := I.2 _ _ ht
    have hk := (A.held _).2 h
    refine I.acc ht (A.addPub I.1 hk) h ⟨h, .inr ⟨rfl, .inl he⟩, hctx, ?_⟩
    refine WF.le ?_ W
    exact ⟨rfl, fun _ => id, fun _ => id, fun _ _ => .inr, fun _ => .inr, fun _ => id, fun _ => id, fun h => h.elim⟩
  | staleOwn ht he =>
    obtain ⟨V, A, h, hctx, W⟩ := I.2 _ _ ht
    have hk := (A.held _).2 h
    refine I.acc ht (A.addPub I.1 hk) h ⟨h, .inr ⟨rfl, .inl he⟩, wf_detect hctx rfl ?_⟩
    refine WF.le ?_ W
    exact ⟨rfl, fun _ => id, fun _ => id, fun _ _ => .inr, fun _ => .inr, fun _ => id, fun _ => id, id⟩
  | make ht he =>
    obtain ⟨V, A, h, hctx, W⟩ := I.2 _ _ ht
    refine I.newEntry ht he A.noInit ⟨h, .inl (.inl rfl), .inl (.inl rfl), .inl (.inl rfl), .inl (.inl rfl), hctx, ?_⟩
    refine WF.le ?_ W
    exact ⟨rfl, fun _ => id, fun _ => .inr, fun _ _ => id, fun _ => id, fun _ => id, fun _ => id, id⟩
  | tend ht =>
    obtain ⟨V, A, W⟩ := I.2 _ _ ht
    refine I.goOn ht ?_ rfl rfl rfl rfl rfl rfl rfl rfl
    exact ⟨_, A, W, rfl, rfl, rfl⟩
  | setOwn ht hc =>
    obtain ⟨V, A, h, he, hctx, W⟩ := I.2 _ _ ht
    obtain ⟨k', hb⟩ := I.1.cur _ _ hc
    refine I.load ht hb A.noInit ⟨.inr ⟨rfl, .inl rfl⟩, hctx, h, rfl, he, rfl, ?_⟩
    refine WF.le ?_ W
    exact ⟨h, fun _ => id, fun _ => id, fun _ _ => .inr, fun _ => id, fun _ => id, fun _ => .inr, id⟩
  | nested ht =>
    obtain ⟨V, A, h, hctx, W⟩ := I.2 _ _ ht
    refine I.goOn ht ?_ rfl rfl rfl rfl rfl rfl rfl rfl
    exact ⟨_, A.noInit, hctx, h, hctx, wf_detect hctx h W⟩
  | save ht he =>
    obtain ⟨V, A, h, hctx, W⟩ := I.2 _ _ ht
    rename_i e
    refine I.newEntry ht he (V := { V with mine := fun e' => e' ≠ e ∧ V.mine e', init := False })
      ⟨A.held, A.ctx, fun e h => A.mine e h.2, A.pub, A.res, A.box, A.boxr, fun h => h.elim⟩ ⟨hctx, .inl (.inl rfl), h, .inl rfl, hctx, ?_⟩
    refine WF.le ?_ W
    refine ⟨rfl, fun _ => id, fun e' he' => ⟨?_, .inr ⟨?_, he'⟩⟩, fun _ _ => id, fun _ => id, fun _ => id, fun _ => id, id⟩
    · rintro rfl; have := A.mine _ he'; rw [he] at this; cases this
    · rintro rfl; have := A.mine _ he'; rw [he] at this; cases this
  | set ht hc =>
    obtain ⟨V, A, h, he, hctx, W⟩ := I.2 _ _ ht
    obtain ⟨k', hb⟩ := I.1.cur _ _ hc
    refine I.load ht hb A.noInit ⟨.inr ⟨rfl, .inl rfl⟩, h, hctx, .inl he, .inl he, h, .inl he, rfl, rfl, he, rfl, ?_⟩
    refine WF.le ?_ W
    exact ⟨h, fun _ => id, fun _ => id, fun _ _ => .inr, fun _ => id, fun _ => id, fun _ => .inr, id⟩
  | replace ht hi =>
    rename_i k e r i
    obtain ⟨V, A, h, he, W⟩ := I.2 _ _ ht
    have m : V.May true (.table k) := h
    have I1 : Inv (s.emit t (.acc true (.table k)) (.place k e :: r)) := I.acc ht A m ⟨h, he, W⟩
    obtain ⟨V', A', h', he', W'⟩ := I1.2 t _ (upd_same _ _ _)
    have := I1.publish (buf := (s.buf k).set i e) (upd_same _ _ _) A' h' he' (fun e' hm => (List.mem_or_eq_of_mem_set hm).symm) W'
    simp only [State.goOn, State.emit, upd_upd] at this ⊢
    exact this
  | append ht =>
    rename_i k e r
    obtain ⟨V, A, h, he, W⟩ := I.2 _ _ ht
    have m : V.May true (.table k) := h
    have I1 : Inv (s.emit t (.acc true (.table k)) (.place k e :: r)) := I.acc ht A m ⟨h, he, W⟩
    obtain ⟨V', A', h', he', W'⟩ := I1.2 t _ (upd_same _ _ _)
    have := I1.publish (buf := s.buf k ++ [e]) (r := .acc false (.hkey e) :: r) (upd_same _ _ _) A' h' he'
      (fun e' hm => by
        rcases List.mem_append.1 hm with hm | hm
        · exact .inr hm
        · exact .inl (List.mem_singleton.1 hm)) ⟨.inr ⟨k, .inl ⟨rfl, rfl⟩, h'⟩, W'⟩
    simp only [State.goOn, State.emit, upd_upd] at this ⊢
    exact this
  | clean ht =>
    obtain ⟨V, A, h, W⟩ := I.2 _ _ ht
    refine I.goOn ht ?_ rfl rfl rfl rfl rfl rfl rfl rfl
    refine ⟨_, A.noInit, h, h, rfl, rfl, rfl, ?_⟩
    refine WF.le ?_ W
    exact ⟨h, fun _ => id, fun _ => id, fun _ _ => id, fun _ => id, fun _ => id, fun _ => id, id⟩
  | sweep ht he hkeep =>
    rename_i k _ _ _
    obtain ⟨V, A, h, W⟩ := I.2 _ _ ht
    have hk := (A.held _).2 h
    refine I.acc ht (A.addPub I.1 hk) h ?_
    refine wf_reads (k := k) ?_ ?_ ?_
    rotate_left
    · refine ⟨h, fun e he => .inl ⟨rfl, hkeep e he⟩, ?_⟩
      exact WF.le (V := V) ⟨rfl, fun _ => id, fun _ => id, fun _ _ => .inr, fun _ => .inr, fun _ => id, fun _ => id, id⟩ W
    · exact fun e h => .inl ⟨rfl, he e h⟩
    · exact h
  | sweepNot ht he =>
    rename_i k _ _
    obtain ⟨V, A, h, W⟩ := I.2 _ _ ht
    have hk := (A.held _).2 h
    refine I.acc ht (A.addPub I.1 hk) h ?_
    refine wf_stamps (k := k) ?_ ?_ ?_
    rotate_left
    · exact WF.le (V := V) ⟨rfl, fun _ => id, fun _ => id, fun _ _ => .inr, fun _ => .inr, fun _ => id, fun _ => id, id⟩ W
    · exact fun e h => .inl ⟨rfl, he e h⟩
    · exact h
  | shrink ht =>
    obtain ⟨V, A, h, hp, W⟩ := I.2 _ _ ht
    exact (I.acc ht A (w := true) (l := .table _) h W).shrink (fun e he => A.pub _ _ (hp e he))
  | store ht =>
    obtain ⟨V, A, h, W⟩ := I.2 _ _ ht
    exact I.store ht A h W
  | put ht =>
    obtain ⟨V, A, h, W⟩ := I.2 _ _ ht
    exact I.put ht A h W
  | user hd ht => cases hd
  | userFind ht hc =>
    obtain ⟨V, A, W⟩ := I.2 _ _ ht
    exact W.elim
  | userHit ht he =>
    obtain ⟨V, A, W⟩ := I.2 _ _ ht
    exact W.elim

end Verif.Race

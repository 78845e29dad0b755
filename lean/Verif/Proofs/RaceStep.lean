import Verif.Proofs.Race
/-
The steps keep the invariant.
-/
namespace Verif.Race

theorem upd_same {α : Type} (f : Nat → α) (i : Nat) (a : α) : upd f i a i = a := if_pos rfl

theorem upd_ne {α : Type} (f : Nat → α) {i j : Nat} (a : α) (h : j ≠ i) : upd f i a j = f j := if_neg h

theorem upd_upd {α : Type} (f : Nat → α) (i : Nat) (a b : α) : upd (upd f i a) i b = upd f i b := by
  funext j
  by_cases h : j = i
  · rw [h, upd_same, upd_same]
  · rw [upd_ne _ _ h, upd_ne _ _ h, upd_ne _ _ h]

theorem upd_none {β : Type} (f : Nat → Option β) {i j : Nat} {a} (hi : f i ≠ none) (h : upd f i (some a) j ≠ none) : f j ≠ none := by
  by_cases hj : j = i
  · rw [hj]; exact hi
  · rw [upd_ne _ _ hj] at h; exact h

theorem upd_none' {β : Type} (f : Nat → Option β) {i j : Nat} {a} (h : upd f i (some a) j = none) : f j = none := by
  by_cases hj : j = i
  · rw [hj, upd_same] at h; cases h
  · rw [upd_ne _ _ hj] at h; exact h

abbrev Threads (s : State) : Prop := ∀ t r, s.todo t = some r → ∃ V, Agree s t V ∧ WF V r

theorem Threads.step {s s' : State} {t : Nat} (T : Threads s) (live : s.todo t ≠ none) (htodo : ∀ u, u ≠ t → s'.todo u = s.todo u)
    (own : ∀ r, s'.todo t = some r → ∃ V, Agree s' t V ∧ WF V r)
    (other : ∀ u V, u ≠ t → ¬ V.init → Agree s u V → Agree s' u V) : Threads s' := by
  intro u r hu
  by_cases h : u = t
  · subst h; exact own r hu
  · rw [htodo u h] at hu
    obtain ⟨V, A, W⟩ := T u r hu
    exact ⟨V, other u V h (fun hi => live ((A.init hi).1 t (fun e => h e.symm))) A, W⟩

/-- Only the rest of the work of one goroutine changes. -/
theorem Inv.goOn {s s' : State} {t r' r} (I : Inv s) (ht : s.todo t = some r') (h : ∃ V, Agree s t V ∧ WF V r)
    (h1 : s'.trace = s.trace) (h2 : s'.todo = upd s.todo t (some r)) (h3 : s'.holder = s.holder) (h4 : s'.buf = s.buf) (h5 : s'.ctx = s.ctx)
    (h6 : s'.entry = s.entry) (h7 : s'.box = s.box) (h8 : s'.cur = s.cur) : Inv s' := by
  have live : s.todo t ≠ none := by rw [ht]; exact fun e => by cases e
  have keep : ∀ u V, (V.init → u = t) → Agree s u V → Agree s' u V := fun u V hu A =>
    A.keep (.inl h1) (fun k => by rw [h3]) (fun c => by rw [h5]; exact id) (fun e => by rw [h6]; exact id) (fun e k => by rw [h6]; exact id)
      (fun e => by rw [h7]; exact id) (fun e k h => by rw [h7]; exact ⟨k, h⟩)
      (fun hi v hv => by rw [h2]; rw [upd_ne _ _ (hu hi ▸ hv)]; exact (A.init hi).1 v hv)
  refine ⟨I.1.silent h1 (fun i w l K => ?_) ?_ ?_ ?_, Threads.step I.2 live (fun u hu => by rw [h2, upd_ne _ _ hu]) (fun r₂ hr => ?_) (fun u V hu hi A => keep u V (fun h => absurd h hi) A)⟩
  · have hg : s'.guard l = s.guard l := by cases l <;> simp only [State.guard, h5, h6, h7]
    rw [hg]
    cases h : s.guard l <;> rw [h] at K <;> simp only [State.Knows, State.KnowsM, h1, h3] at K ⊢
    all_goals first | exact K | exact fun e u hu => K e u (by rw [h2] at hu; exact upd_none _ live hu)
  · rw [h4, h6]; exact I.1.buf
  · rw [h7, h8]; exact I.1.cur
  · intro u hu; rw [h2] at hu; rw [h3]; exact I.1.fresh u (upd_none' _ hu)
  · rw [h2, upd_same] at hr
    injection hr with hr; subst hr
    obtain ⟨V, A, W⟩ := h
    exact ⟨V, keep t V (fun _ => rfl) A, W⟩

/-- An access. -/
theorem Inv.acc {s : State} {t r' r V w l} (I : Inv s) (ht : s.todo t = some r') (A : Agree s t V) (m : V.May w l) (W : WF V r) :
    Inv (s.emit t (.acc w l) r) := by
  have live : s.todo t ≠ none := by rw [ht]; exact fun e => by cases e
  have w1 : ∀ e, (Ev.acc w l) = .acc true (.result e) → ∀ k, s.entry e ≠ .shared k := by
    intro e he k hk
    injection he with e1 e2
    subst e1 e2
    rcases m with m | ⟨m, _⟩
    · rw [A.mine _ m] at hk; cases hk
    · cases m
  have w2 : ∀ e, (Ev.acc w l) = .acc true (.box e) → ∀ k, s.box e ≠ .shared k := by
    intro e he k hk
    injection he with e1 e2
    subst e1 e2
    rcases m with m | ⟨m, _⟩
    · rw [A.box _ m] at hk; cases hk
    · cases m
  have keep : ∀ u V, (V.init → u = t) → Agree s u V → Agree (s.emit t (.acc w l) r) u V := fun u V hu A =>
    A.keep (.inr ⟨t, _, rfl, w1, w2, fun hi => (hu hi).symm⟩) (fun k => Iff.rfl) (fun c => id) (fun e => id) (fun e k => id) (fun e => id) (fun e k h => ⟨k, h⟩)
      (fun hi v hv => (upd_ne _ _ (hu hi ▸ hv)).trans ((A.init hi).1 v hv))
  refine ⟨I.1.event rfl (fun i w' l' K => Knows.mono rfl (fun _ => rfl) (fun c => by simp) (fun u hu => upd_none _ live hu) K) (fun w' l' hx => ?_) I.1.buf I.1.cur
    (fun u hu => I.1.fresh u (upd_none' _ hu)), Threads.step I.2 live (fun u hu => upd_ne _ _ hu) (fun r₂ hr => ?_)
    (fun u V hu hi A => keep u V (fun h => absurd h hi) A)⟩
  · injection hx with e1 e2
    subst e1 e2
    refine ⟨fun i u w' h _ hw => I.1.may A live m h hw, ?_⟩
    have hs : Seen (s.emit t (.acc w l) r).trace t s.trace.length := Seen.self _ _ _
    cases l <;> simp only [View.May] at m <;> simp only [State.guard]
    · show State.Knows _ _ _ ((s.ctx _).guard _); rw [A.ctx _ m]; exact hs
    · show State.Knows _ _ _ ((s.box _).guard _)
      rcases m with m | ⟨rfl, m⟩
      · rw [A.box _ m]; exact hs
      · obtain ⟨⟨k, e⟩, _⟩ := A.boxr _ m
        rw [e]; intro h; cases h
    · have := (A.held _).2 m
      show State.KnowsM _ _ _
      unfold State.KnowsM
      rw [show (s.emit t (.acc w (.table _)) r).holder _ = s.holder _ from rfl, this]; exact hs
    · show State.Knows _ _ _ ((s.entry _).guard _)
      rcases m with m | ⟨k, m, hk⟩
      · rw [A.mine _ m]; exact hs
      · rw [A.pub _ _ m]
        show State.KnowsM _ _ _
        unfold State.KnowsM
        rw [show (s.emit t (.acc w (.hkey _)) r).holder _ = s.holder _ from rfl, (A.held _).2 hk]; exact hs
    · show State.Knows _ _ _ ((s.entry _).guard _)
      rcases m with m | ⟨k, m, hk⟩
      · rw [A.mine _ m]; exact hs
      · rw [A.pub _ _ m]
        show State.KnowsM _ _ _
        unfold State.KnowsM
        rw [show (s.emit t (.acc w (.stamp _)) r).holder _ = s.holder _ from rfl, (A.held _).2 hk]; exact hs
    · show State.Knows _ _ _ ((s.entry _).guard _)
      rcases m with m | ⟨rfl, m⟩
      · rw [A.mine _ m]; exact hs
      · obtain ⟨⟨k, e⟩, _⟩ := A.res _ m
        rw [e]; intro h; cases h
    · rcases m with m | rfl
      · intro _ u hu
        have hu' : u = t := by
          by_cases h : u = t
          · exact h
          · exact absurd ((upd_ne _ _ h).trans ((A.init m).1 u h)) hu
        subst hu'; exact hs
      · intro h; cases h
  · have hr' : some r = some r₂ := (upd_same s.todo t (some r)).symm.trans hr
    injection hr' with hr'; subst hr'
    exact ⟨V, keep t V (fun _ => rfl) A, W⟩

theorem Inv.lock {s : State} {t r' r V k} (I : Inv s) (ht : s.todo t = some r') (A : Agree s t V) (hv : V.held = none) (hk : s.holder k = none)
    (W : WF { V with held := some k } r) : Inv { s.emit t (.lock k) r with holder := upd s.holder k (some t) } := by
  have live : s.todo t ≠ none := by rw [ht]; exact fun e => by cases e
  refine ⟨I.1.event rfl (fun i w l K => ?_) (fun w l hx => by cases hx) I.1.buf I.1.cur (fun u hu j => ?_),
    Threads.step I.2 live (fun u hu => upd_ne _ _ hu) (fun r₂ hr => ?_) (fun u V hu hi A => ?_)⟩
  · have hM : ∀ j, s.KnowsM j i → State.KnowsM { s.emit t (.lock k) r with holder := upd s.holder k (some t) } j i := by
      intro j K
      by_cases hj : j = k
      · subst hj
        unfold State.KnowsM at *
        rw [hk] at K
        simp only [upd_same]
        exact SeenM.lock K
      · exact KnowsM.mono rfl (upd_ne _ _ hj) K
    show State.Knows _ _ _ (s.guard l)
    cases h : s.guard l <;> rw [h] at K <;> simp only [State.Knows] at K ⊢
    · exact K.mono
    · exact hM _ K
    · exact K.mono (by simp)
    · exact fun e => hM _ (K e)
    · exact fun e => (K e).mono
    · exact fun e u hu => (K e u (upd_none _ live hu)).mono
  · show upd s.holder k (some t) j ≠ some u
    intro h
    by_cases hj : j = k
    · subst hj
      rw [upd_same] at h
      injection h with h; subst h
      exact live (upd_none' _ hu)
    · rw [upd_ne _ _ hj] at h
      exact I.1.fresh u (upd_none' _ hu) j h
  · have hr' : some r = some r₂ := (upd_same s.todo t (some r)).symm.trans hr
    injection hr' with hr'; subst hr'
    refine ⟨_, ?_, W⟩
    have A' : Agree (s.emit t (.lock k) r) t V := A.keep (.inr ⟨t, _, rfl, fun e h => (by cases h), fun e h => (by cases h), fun _ => rfl⟩) (fun k => Iff.rfl)
      (fun c => id) (fun e => id) (fun e k => id) (fun e => id) (fun e k h => ⟨k, h⟩)
      (fun hi v hv => (upd_ne _ _ hv).trans ((A.init hi).1 v hv))
    refine ⟨fun j => ?_, A'.ctx, A'.mine, A'.pub, A'.res, A'.box, A'.boxr, A'.init⟩
    show upd s.holder k (some t) j = some t ↔ some k = some j
    by_cases hj : j = k
    · subst hj; simp only [upd_same]
    · rw [upd_ne _ _ hj]
      constructor
      · intro h; have := (A.held j).1 h; rw [hv] at this; cases this
      · intro h; injection h with h; exact absurd h.symm hj
  · refine A.keep (.inr ⟨t, _, rfl, fun e h => (by cases h), fun e h => (by cases h), fun h => absurd h hi⟩) (fun j => ?_)
      (fun c => id) (fun e => id) (fun e k => id) (fun e => id) (fun e k h => ⟨k, h⟩) (fun h => absurd h hi)
    show upd s.holder k (some t) j = some u ↔ _
    by_cases hj : j = k
    · subst hj
      rw [upd_same, hk]
      constructor
      · intro h; injection h with h; exact absurd h.symm hu
      · intro h; cases h
    · rw [upd_ne _ _ hj]

theorem Inv.unlock {s : State} {t r' r V k} (I : Inv s) (ht : s.todo t = some r') (A : Agree s t V) (hv : V.held = some k)
    (W : WF { V with held := none } r) : Inv { s.emit t (.unlock k) r with holder := upd s.holder k none } := by
  have live : s.todo t ≠ none := by rw [ht]; exact fun e => by cases e
  have hk : s.holder k = some t := (A.held k).2 hv
  refine ⟨I.1.event rfl (fun i w l K => ?_) (fun w l hx => by cases hx) I.1.buf I.1.cur (fun u hu j => ?_),
    Threads.step I.2 live (fun u hu => upd_ne _ _ hu) (fun r₂ hr => ?_) (fun u V hu hi A => ?_)⟩
  · have hM : ∀ j, s.KnowsM j i → State.KnowsM { s.emit t (.unlock k) r with holder := upd s.holder k none } j i := by
      intro j K
      by_cases hj : j = k
      · subst hj
        unfold State.KnowsM at *
        rw [hk] at K
        simp only [upd_same]
        exact Seen.unlock K
      · exact KnowsM.mono rfl (upd_ne _ _ hj) K
    show State.Knows _ _ _ (s.guard l)
    cases h : s.guard l <;> rw [h] at K <;> simp only [State.Knows] at K ⊢
    · exact K.mono
    · exact hM _ K
    · exact K.mono (by simp)
    · exact fun e => hM _ (K e)
    · exact fun e => (K e).mono
    · exact fun e u hu => (K e u (upd_none _ live hu)).mono
  · show upd s.holder k none j ≠ some u
    intro h
    by_cases hj : j = k
    · subst hj
      rw [upd_same] at h; cases h
    · rw [upd_ne _ _ hj] at h
      exact I.1.fresh u (upd_none' _ hu) j h
  · have hr' : some r = some r₂ := (upd_same s.todo t (some r)).symm.trans hr
    injection hr' with hr'; subst hr'
    refine ⟨_, ?_, W⟩
    have A' : Agree (s.emit t (.unlock k) r) t V := A.keep (.inr ⟨t, _, rfl, fun e h => (by cases h), fun e h => (by cases h), fun _ => rfl⟩) (fun k => Iff.rfl)
      (fun c => id) (fun e => id) (fun e k => id) (fun e => id) (fun e k h => ⟨k, h⟩)
      (fun hi v hv => (upd_ne _ _ hv).trans ((A.init hi).1 v hv))
    refine ⟨fun j => ?_, A'.ctx, A'.mine, A'.pub, A'.res, A'.box, A'.boxr, A'.init⟩
    show upd s.holder k none j = some t ↔ none = some j
    by_cases hj : j = k
    · subst hj; rw [upd_same]; constructor <;> intro h <;> cases h
    · rw [upd_ne _ _ hj]
      constructor
      · intro h; have := (A.held j).1 h; rw [hv] at this; injection this with this; exact absurd this.symm hj
      · intro h; cases h
  · refine A.keep (.inr ⟨t, _, rfl, fun e h => (by cases h), fun e h => (by cases h), fun h => absurd h hi⟩) (fun j => ?_)
      (fun c => id) (fun e => id) (fun e k => id) (fun e => id) (fun e k h => ⟨k, h⟩) (fun h => absurd h hi)
    show upd s.holder k none j = some u ↔ _
    by_cases hj : j = k
    · subst hj
      rw [upd_same, hk]
      constructor
      · intro h; cases h
      · intro h; injection h with h; exact absurd h.symm hu
    · rw [upd_ne _ _ hj]

/-- Starting a goroutine. -/
theorem Inv.spawn {s : State} {t u r' r ru V} (I : Inv s) (ht : s.todo t = some r') (hu : s.todo u = none) (A : Agree s t V) (hi : ¬ V.init) (W : WF V r)
    (Wu : WF .empty ru) : Inv { s.emit t (.go u) r with todo := upd (upd s.todo t (some r)) u (some ru) } := by
  have live : s.todo t ≠ none := by rw [ht]; exact fun e => by cases e
  have hne : t ≠ u := fun e => live (e ▸ hu)
  have keep : ∀ v V, ¬ V.init → Agree s v V → Agree { s.emit t (.go u) r with todo := upd (upd s.todo t (some r)) u (some ru) } v V := fun v V hi A =>
    A.keep (.inr ⟨t, _, rfl, fun e h => (by cases h), fun e h => (by cases h), fun h => absurd h hi⟩) (fun k => Iff.rfl)
      (fun c => id) (fun e => id) (fun e k => id) (fun e => id) (fun e k h => ⟨k, h⟩) (fun h => absurd h hi)
  refine ⟨I.1.event rfl (fun i w l K => ?_) (fun w l hx => by cases hx) I.1.buf I.1.cur (fun v hv => I.1.fresh v (upd_none' _ (upd_none' _ hv))), ?_⟩
  · show State.Knows _ _ _ (s.guard l)
    cases h : s.guard l <;> rw [h] at K <;> simp only [State.Knows] at K ⊢
    · exact K.mono
    · exact KnowsM.mono rfl rfl K
    · exact K.mono (by simp)
    · exact fun e => KnowsM.mono rfl rfl (K e)
    · exact fun e => (K e).mono
    · intro e v hv
      by_cases h : v = u
      · subst h; exact (K e t live).go
      · rw [upd_ne _ _ h] at hv
        exact (K e v (upd_none _ live hv)).mono
  · intro v rv hv
    change upd (upd s.todo t (some r)) u (some ru) v = some rv at hv
    by_cases h : v = u
    · subst h
      rw [upd_same] at hv; injection hv with hv; subst hv
      refine ⟨_, ?_, Wu⟩
      refine ⟨fun k => ⟨fun h => absurd h (I.1.fresh _ hu k), fun h => (by cases h)⟩, fun _ h => h.elim, fun _ h => h.elim, fun _ _ h => h.elim,
        fun _ h => h.elim, fun _ h => h.elim, fun _ h => h.elim, fun h => h.elim⟩
    · rw [upd_ne _ _ h] at hv
      by_cases h' : v = t
      · subst h'
        rw [upd_same] at hv; injection hv with hv; subst hv
        exact ⟨V, keep _ V hi A, W⟩
      · rw [upd_ne _ _ h'] at hv
        obtain ⟨V', A', W'⟩ := I.2 v rv hv
        exact ⟨V', keep v V' (fun hi => live ((A'.init hi).1 t (fun e => h' e.symm))) A', W'⟩

/-- A context changes hands to a goroutine that has seen all that was done with it. -/
theorem Inv.give {s : State} {t u c} (I : Inv s) (ht : s.todo t = some []) (hc : s.ctx c = .mine t) (hne : u ≠ t)
    (hs : ∀ i v w, s.trace[i]? = some (v, .acc w (.ctx c)) → Seen s.trace u i) : Inv { s with ctx := upd s.ctx c (.mine u) } := by
  refine ⟨⟨fun i v w l h => ?_, I.1.norace, I.1.buf, I.1.cur, I.1.fresh⟩, fun v r hv => ?_⟩
  · by_cases hl : l = .ctx c
    · subst hl
      simp only [State.guard, upd_same]
      exact hs i v w h
    · have K := I.1.know i v w l h
      have hg : State.guard { s with ctx := upd s.ctx c (.mine u) } l = s.guard l := by
        cases l
        case ctx c' => simp only [State.guard]; rw [upd_ne]; intro e; exact hl (by rw [e])
        all_goals rfl
      rw [hg]
      exact K
  · obtain ⟨V, A, W⟩ := I.2 v r hv
    by_cases h : v = t
    · subst h
      have hr : r = [] := by rw [ht] at hv; injection hv with hv; exact hv.symm
      subst hr
      exact ⟨{ V with ctx := fun _ => False }, ⟨A.held, fun _ h => h.elim, A.mine, A.pub, A.res, A.box, A.boxr, A.init⟩, W⟩
    · refine ⟨V, ⟨A.held, fun c' hc' => ?_, A.mine, A.pub, A.res, A.box, A.boxr, A.init⟩, W⟩
      have h1 := A.ctx c' hc'
      refine (upd_ne _ _ ?_).trans h1
      intro e; rw [e, hc] at h1; injection h1 with h1; exact h h1.symm

/-- Loading the address of a box. -/
theorem Inv.load {s : State} {t r' r V b k} (I : Inv s) (ht : s.todo t = some r') (hb : s.box b = .shared k) (A : Agree s t V)
    (W : WF { V with boxr := fun b' => b' = b ∨ V.boxr b' } r) : Inv (s.emit t (.load b) r) := by
  have live : s.todo t ≠ none := by rw [ht]; exact fun e => by cases e
  have keep : ∀ u V, (V.init → u = t) → Agree s u V → Agree (s.emit t (.load b) r) u V := fun u V hu A =>
    A.keep (.inr ⟨t, _, rfl, fun e h => (by cases h), fun e h => (by cases h), fun hi => (hu hi).symm⟩) (fun k => Iff.rfl) (fun c => id) (fun e => id)
      (fun e k => id) (fun e => id) (fun e k h => ⟨k, h⟩) (fun hi v hv => (upd_ne _ _ (hu hi ▸ hv)).trans ((A.init hi).1 v hv))
  refine ⟨I.1.event rfl (fun i w' l' K => Knows.mono rfl (fun _ => rfl) (fun c => by simp) (fun u hu => upd_none _ live hu) K) (fun w l hx => by cases hx)
    I.1.buf I.1.cur (fun u hu => I.1.fresh u (upd_none' _ hu)), Threads.step I.2 live (fun u hu => upd_ne _ _ hu) (fun r₂ hr => ?_)
    (fun u V hu hi A => keep u V (fun h => absurd h hi) A)⟩
  have hr' : some r = some r₂ := (upd_same s.todo t (some r)).symm.trans hr
  injection hr' with hr'; subst hr'
  have A' := keep t V (fun _ => rfl) A
  refine ⟨_, ?_, W⟩
  refine ⟨A'.held, A'.ctx, A'.mine, A'.pub, A'.res, A'.box, fun b' h => ?_, A'.init⟩
  rcases h with rfl | h
  · refine ⟨⟨k, hb⟩, fun i u hg => ?_⟩
    rcases get_cases hg with hg | ⟨_, hg⟩
    · have K := I.1.know i u true _ hg
      simp only [State.guard, hb] at K
      exact SeenB.load (K rfl)
    · cases (Prod.mk.inj hg).2
  · exact A'.boxr b' h

/-- A context comes out of the pool. -/
theorem Inv.get {s : State} {t r' c k V} (I : Inv s) (ht : s.todo t = some r') (hc : s.ctx c = .shared k) (A : Agree s t V) (W : WF V []) :
    Inv { s.emit t (.get c) [] with ctx := upd s.ctx c (.mine t) } := by
  have live : s.todo t ≠ none := by rw [ht]; exact fun e => by cases e
  have keep : ∀ u V, (V.init → u = t) → Agree s u V → Agree { s.emit t (.get c) [] with ctx := upd s.ctx c (.mine t) } u V := fun u V hu A =>
    A.keep (.inr ⟨t, _, rfl, fun e h => (by cases h), fun e h => (by cases h), fun hi => (hu hi).symm⟩) (fun k => Iff.rfl)
      (fun c' h => (upd_ne _ _ (fun e => by rw [e, hc] at h; cases h)).trans h) (fun e => id)
      (fun e k => id) (fun e => id) (fun e k h => ⟨k, h⟩) (fun hi v hv => (upd_ne _ _ (hu hi ▸ hv)).trans ((A.init hi).1 v hv))
  refine ⟨I.1.event rfl (fun i w l K => ?_) (fun w l hx => by cases hx)
    I.1.buf I.1.cur (fun u hu => I.1.fresh u (upd_none' _ hu)), Threads.step I.2 live (fun u hu => upd_ne _ _ hu) (fun r₂ hr => ?_)
    (fun u V hu hi A => keep u V (fun h => absurd h hi) A)⟩
  · have other : ∀ l, l ≠ .ctx c → s.Knows w i (s.guard l) → State.Knows { s.emit t (.get c) [] with ctx := upd s.ctx c (.mine t) } w i (s.guard l) := by
      intro l hl K
      cases h : s.guard l <;> rw [h] at K <;> simp only [State.Knows] at K ⊢
      · exact K.mono
      · exact KnowsM.mono rfl rfl K
      · rename_i c'
        refine K.mono fun e => hl ?_
        injection e with e; subst e
        cases l <;> simp only [State.guard] at h
        · rename_i c'
          cases h' : s.ctx c' <;> rw [h'] at h <;> cases h
          rfl
        · rename_i c'; cases h' : s.box c' <;> rw [h'] at h <;> cases h
        · cases h
        · rename_i c'; cases h' : s.entry c' <;> rw [h'] at h <;> cases h
        · rename_i c'; cases h' : s.entry c' <;> rw [h'] at h <;> cases h
        · rename_i c'; cases h' : s.entry c' <;> rw [h'] at h <;> cases h
        · cases h
      · exact fun e => KnowsM.mono rfl rfl (K e)
      · exact fun e => (K e).mono
      · exact fun e u hu => (K e u (upd_none _ live hu)).mono
    by_cases hl : l = .ctx c
    · subst hl
      simp only [State.guard, hc] at K
      simp only [State.guard, upd_same]
      exact SeenP.get K
    · have hg : State.guard { s.emit t (.get c) [] with ctx := upd s.ctx c (.mine t) } l = s.guard l := by
        cases l
        case ctx c' => simp only [State.guard]; rw [upd_ne]; intro e; exact hl (by rw [e])
        all_goals rfl
      rw [hg]; exact other l hl K
  · have hr' : some [] = some r₂ := (upd_same s.todo t (some [])).symm.trans hr
    injection hr' with hr'; subst hr'
    exact ⟨V, keep t V (fun _ => rfl) A, W⟩

/-- A context goes into the pool. -/
theorem Inv.put {s : State} {t r' r c V} (I : Inv s) (ht : s.todo t = some r') (A : Agree s t V) (hc : V.ctx c)
    (W : WF { V with ctx := fun c' => c' ≠ c ∧ V.ctx c' } r) : Inv { s.emit t (.put c) r with ctx := upd s.ctx c (.shared 0) } := by
  have live : s.todo t ≠ none := by rw [ht]; exact fun e => by cases e
  have hc' := A.ctx c hc
  refine ⟨I.1.event rfl (fun i w l K => ?_) (fun w l hx => by cases hx)
    I.1.buf I.1.cur (fun u hu => I.1.fresh u (upd_none' _ hu)), Threads.step I.2 live (fun u hu => upd_ne _ _ hu) (fun r₂ hr => ?_)
    (fun u V hu hi A => ?_)⟩
  · by_cases hl : l = .ctx c
    · subst hl
      simp only [State.guard, hc'] at K
      simp only [State.guard, upd_same]
      exact Seen.put K
    · have hg : State.guard { s.emit t (.put c) r with ctx := upd s.ctx c (.shared 0) } l = s.guard l := by
        cases l
        case ctx c' => simp only [State.guard]; rw [upd_ne]; intro e; exact hl (by rw [e])
        all_goals rfl
      rw [hg]
      exact Knows.mono rfl (fun _ => rfl) (fun c => by simp) (fun u hu => upd_none _ live hu) K
  · have hr' : some r = some r₂ := (upd_same s.todo t (some r)).symm.trans hr
    injection hr' with hr'; subst hr'
    have A' : Agree (s.emit t (.put c) r) t V := A.keep (.inr ⟨t, _, rfl, fun e h => (by cases h), fun e h => (by cases h), fun _ => rfl⟩) (fun k => Iff.rfl)
      (fun c => id) (fun e => id) (fun e k => id) (fun e => id) (fun e k h => ⟨k, h⟩)
      (fun hi v hv => (upd_ne _ _ hv).trans ((A.init hi).1 v hv))
    refine ⟨_, ?_, W⟩
    refine ⟨A'.held, fun c' h => ?_, A'.mine, A'.pub, A'.res, A'.box, A'.boxr, A'.init⟩
    exact (upd_ne _ _ h.1).trans (A.ctx c' h.2)
  · refine A.keep (.inr ⟨t, _, rfl, fun e h => (by cases h), fun e h => (by cases h), fun h => absurd h hi⟩) (fun j => Iff.rfl)
      (fun c' h => (upd_ne _ _ (fun e => ?_)).trans h) (fun e => id) (fun e k => id) (fun e => id) (fun e k h => ⟨k, h⟩) (fun h => absurd h hi)
    rw [e, hc'] at h; injection h with h; exact hu h.symm

/-- `SetCache`. -/
theorem Inv.store {s : State} {t r' r b k V} (I : Inv s) (ht : s.todo t = some r') (A : Agree s t V) (hb : V.box b)
    (W : WF { V with box := fun b' => b' ≠ b ∧ V.box b', init := False } r) :
    Inv { s.emit t (.store b) r with box := upd s.box b (.shared k), cur := some (b, k) } := by
  have live : s.todo t ≠ none := by rw [ht]; exact fun e => by cases e
  have hb' := A.box b hb
  have hsh : ∀ e k', s.box e = .shared k' → ∃ k₂, upd s.box b (.shared k) e = .shared k₂ := by
    intro e k' h
    by_cases he : e = b
    · subst he; exact ⟨k, upd_same _ _ _⟩
    · exact ⟨k', (upd_ne _ _ he).trans h⟩
  refine ⟨I.1.event rfl (fun i w l K => ?_) (fun w l hx => by cases hx)
    I.1.buf (fun b' k' h => ?_) (fun u hu => I.1.fresh u (upd_none' _ hu)), Threads.step I.2 live (fun u hu => upd_ne _ _ hu) (fun r₂ hr => ?_)
    (fun u V hu hi A => ?_)⟩
  · by_cases hl : l = .box b
    · subst hl
      simp only [State.guard, hb'] at K
      simp only [State.guard, upd_same]
      exact fun _ => Seen.store K
    · have hg : State.guard { s.emit t (.store b) r with box := upd s.box b (.shared k), cur := some (b, k) } l = s.guard l := by
        cases l
        case box c' => simp only [State.guard]; rw [upd_ne]; intro e; exact hl (by rw [e])
        all_goals rfl
      rw [hg]
      exact Knows.mono rfl (fun _ => rfl) (fun c => by simp) (fun u hu => upd_none _ live hu) K
  · injection h with h; injection h with h1 h2; subst h1
    exact ⟨k, upd_same _ _ _⟩
  · have hr' : some r = some r₂ := (upd_same s.todo t (some r)).symm.trans hr
    injection hr' with hr'; subst hr'
    have A' : Agree (s.emit t (.store b) r) t V := A.keep (.inr ⟨t, _, rfl, fun e h => (by cases h), fun e h => (by cases h), fun _ => rfl⟩) (fun k => Iff.rfl)
      (fun c => id) (fun e => id) (fun e k => id) (fun e => id) (fun e k h => ⟨k, h⟩)
      (fun hi v hv => (upd_ne _ _ hv).trans ((A.init hi).1 v hv))
    refine ⟨_, ?_, W⟩
    refine ⟨A'.held, A'.ctx, A'.mine, A'.pub, A'.res, fun c' h => ?_, fun b' h => ?_, fun h => h.elim⟩
    · exact (upd_ne _ _ h.1).trans (A.box c' h.2)
    · obtain ⟨⟨k', h1⟩, h2⟩ := A'.boxr b' h
      exact ⟨hsh b' k' h1, h2⟩
  · refine A.keep (.inr ⟨t, _, rfl, fun e h => (by cases h), fun e h => (by cases h), fun h => absurd h hi⟩) (fun j => Iff.rfl)
      (fun c => id) (fun e => id) (fun e k => id) (fun c' h => (upd_ne _ _ (fun e => ?_)).trans h) hsh (fun h => absurd h hi)
    rw [e, hb'] at h; injection h with h; exact hu h.symm

/-! Objects come into being. -/

theorem Inv.newCtx {s : State} {t r' r c V} (I : Inv s) (ht : s.todo t = some r') (hc : s.ctx c = .free) (A : Agree s t V)
    (W : WF { V with ctx := fun c' => c' = c ∨ V.ctx c' } r) : Inv { s.goOn t r with ctx := upd s.ctx c (.mine t) } := by
  have live : s.todo t ≠ none := by rw [ht]; exact fun e => by cases e
  have keep : ∀ u V, (V.init → u = t) → Agree s u V → Agree { s.goOn t r with ctx := upd s.ctx c (.mine t) } u V := fun u V hu A =>
    A.keep (.inl rfl) (fun k => Iff.rfl) (fun c' h => (upd_ne _ _ (fun e => by rw [e, hc] at h; cases h)).trans h) (fun e => id)
      (fun e k => id) (fun e => id) (fun e k h => ⟨k, h⟩) (fun hi v hv => (upd_ne _ _ (hu hi ▸ hv)).trans ((A.init hi).1 v hv))
  refine ⟨I.1.silent rfl (fun i w l K => ?_) I.1.buf I.1.cur (fun u hu => I.1.fresh u (upd_none' _ hu)),
    Threads.step I.2 live (fun u hu => upd_ne _ _ hu) (fun r₂ hr => ?_) (fun u V hu hi A => keep u V (fun h => absurd h hi) A)⟩
  · by_cases hl : l = .ctx c
    · subst hl; simp only [State.guard, hc] at K; exact K.elim
    · have hg : State.guard { s.goOn t r with ctx := upd s.ctx c (.mine t) } l = s.guard l := by
        cases l
        case ctx c' => simp only [State.guard]; rw [upd_ne]; intro e; exact hl (by rw [e])
        all_goals rfl
      rw [hg]
      cases h : s.guard l <;> rw [h] at K
      all_goals first | exact K | exact fun e u hu => K e u (upd_none _ live hu)
  · have hr' : some r = some r₂ := (upd_same s.todo t (some r)).symm.trans hr
    injection hr' with hr'; subst hr'
    have A' := keep t V (fun _ => rfl) A
    refine ⟨_, ?_, W⟩
    refine ⟨A'.held, fun c' h => ?_, A'.mine, A'.pub, A'.res, A'.box, A'.boxr, A'.init⟩
    rcases h with rfl | h
    · exact upd_same _ _ _
    · exact A'.ctx c' h

theorem Inv.newEntry {s : State} {t r' r e V} (I : Inv s) (ht : s.todo t = some r') (he : s.entry e = .free) (A : Agree s t V)
    (W : WF { V with mine := fun c' => c' = e ∨ V.mine c' } r) : Inv { s.goOn t r with entry := upd s.entry e (.mine t) } := by
  have live : s.todo t ≠ none := by rw [ht]; exact fun e => by cases e
  have old : ∀ e' o, s.entry e' = o → o ≠ .free → upd s.entry e (.mine t) e' = o := fun e' o h ho =>
    (upd_ne _ _ (fun x => ho (by rw [← h, x, he]))).trans h
  have keep : ∀ u V, (V.init → u = t) → Agree s u V → Agree { s.goOn t r with entry := upd s.entry e (.mine t) } u V := fun u V hu A =>
    A.keep (.inl rfl) (fun k => Iff.rfl) (fun c' => id) (fun e' h => old _ _ h (fun x => by cases x)) (fun e' k h => old _ _ h (fun x => by cases x))
      (fun e => id) (fun e k h => ⟨k, h⟩) (fun hi v hv => (upd_ne _ _ (hu hi ▸ hv)).trans ((A.init hi).1 v hv))
  refine ⟨I.1.silent rfl (fun i w l K => ?_) (fun k e' h => old _ _ (I.1.buf k e' h) (fun x => by cases x)) I.1.cur (fun u hu => I.1.fresh u (upd_none' _ hu)),
    Threads.step I.2 live (fun u hu => upd_ne _ _ hu) (fun r₂ hr => ?_) (fun u V hu hi A => keep u V (fun h => absurd h hi) A)⟩
  · have hg : State.guard { s.goOn t r with entry := upd s.entry e (.mine t) } l = s.guard l := by
      cases l
      case hkey e' =>
        simp only [State.guard] at K ⊢; rw [upd_ne]; intro x; subst x; rw [he] at K; exact K.elim
      case stamp e' =>
        simp only [State.guard] at K ⊢; rw [upd_ne]; intro x; subst x; rw [he] at K; exact K.elim
      case result e' =>
        simp only [State.guard] at K ⊢; rw [upd_ne]; intro x; subst x; rw [he] at K; exact K.elim
      all_goals rfl
    rw [hg]
    cases h : s.guard l <;> rw [h] at K
    all_goals first | exact K | exact fun e u hu => K e u (upd_none _ live hu)
  · have hr' : some r = some r₂ := (upd_same s.todo t (some r)).symm.trans hr
    injection hr' with hr'; subst hr'
    have A' := keep t V (fun _ => rfl) A
    refine ⟨_, ?_, W⟩
    refine ⟨A'.held, A'.ctx, fun c' h => ?_, A'.pub, A'.res, A'.box, A'.boxr, A'.init⟩
    rcases h with rfl | h
    · exact upd_same _ _ _
    · exact A'.mine c' h

theorem Inv.newBox {s : State} {t r' r b V} (I : Inv s) (ht : s.todo t = some r') (hb : s.box b = .free) (A : Agree s t V)
    (W : WF { V with box := fun c' => c' = b ∨ V.box c' } r) : Inv { s.goOn t r with box := upd s.box b (.mine t) } := by
  have live : s.todo t ≠ none := by rw [ht]; exact fun e => by cases e
  have old : ∀ e' o, s.box e' = o → o ≠ .free → upd s.box b (.mine t) e' = o := fun e' o h ho =>
    (upd_ne _ _ (fun x => ho (by rw [← h, x, hb]))).trans h
  have keep : ∀ u V, (V.init → u = t) → Agree s u V → Agree { s.goOn t r with box := upd s.box b (.mine t) } u V := fun u V hu A =>
    A.keep (.inl rfl) (fun k => Iff.rfl) (fun c' => id) (fun e => id) (fun e k => id) (fun e' h => old _ _ h (fun x => by cases x))
      (fun e' k h => ⟨k, old _ _ h (fun x => by cases x)⟩) (fun hi v hv => (upd_ne _ _ (hu hi ▸ hv)).trans ((A.init hi).1 v hv))
  refine ⟨I.1.silent rfl (fun i w l K => ?_) I.1.buf (fun b' k' h => ?_) (fun u hu => I.1.fresh u (upd_none' _ hu)),
    Threads.step I.2 live (fun u hu => upd_ne _ _ hu) (fun r₂ hr => ?_) (fun u V hu hi A => keep u V (fun h => absurd h hi) A)⟩
  · have hg : State.guard { s.goOn t r with box := upd s.box b (.mine t) } l = s.guard l := by
      cases l
      case box e' =>
        simp only [State.guard] at K ⊢; rw [upd_ne]; intro x; subst x; rw [hb] at K; exact K.elim
      all_goals rfl
    rw [hg]
    cases h : s.guard l <;> rw [h] at K
    all_goals first | exact K | exact fun e u hu => K e u (upd_none _ live hu)
  · obtain ⟨k, h⟩ := I.1.cur b' k' h
    exact ⟨k, old _ _ h (fun x => by cases x)⟩
  · have hr' : some r = some r₂ := (upd_same s.todo t (some r)).symm.trans hr
    injection hr' with hr'; subst hr'
    have A' := keep t V (fun _ => rfl) A
    refine ⟨_, ?_, W⟩
    refine ⟨A'.held, A'.ctx, A'.mine, A'.pub, A'.res, fun c' h => ?_, A'.boxr, A'.init⟩
    rcases h with rfl | h
    · exact upd_same _ _ _
    · exact A'.box c' h

/-- The table of a cache changes under its lock; an entry may become known to others by this. -/
theorem Inv.publish {s : State} {t r' r k e V} {buf : List Nat} (I : Inv s) (ht : s.todo t = some r') (A : Agree s t V) (hk : V.held = some k) (he : V.mine e)
    (hbuf : ∀ e' ∈ buf, e' = e ∨ e' ∈ s.buf k)
    (W : WF { V with mine := fun e' => e' ≠ e ∧ V.mine e', pub := fun e' k' => (e' = e ∧ k' = k) ∨ V.pub e' k' } r) :
    Inv { s.goOn t r with buf := upd s.buf k buf, entry := upd s.entry e (.shared k) } := by
  have live : s.todo t ≠ none := by rw [ht]; exact fun e => by cases e
  have he' := A.mine e he
  have hold := (A.held k).2 hk
  have sh : ∀ e' k', s.entry e' = .shared k' → upd s.entry e (.shared k) e' = .shared k' := fun e' k' h =>
    (upd_ne _ _ (fun x => by rw [x, he'] at h; cases h)).trans h
  refine ⟨I.1.silent rfl (fun i w l K => ?_) (fun k' e' h => ?_) I.1.cur (fun u hu => I.1.fresh u (upd_none' _ hu)),
    Threads.step I.2 live (fun u hu => upd_ne _ _ hu) (fun r₂ hr => ?_) (fun u V hu hi A => ?_)⟩
  · have kM : Seen s.trace t i → State.KnowsM { s.goOn t r with buf := upd s.buf k buf, entry := upd s.entry e (.shared k) } k i := by
      intro h
      unfold State.KnowsM
      rw [show State.holder { s.goOn t r with buf := upd s.buf k buf, entry := upd s.entry e (.shared k) } k = s.holder k from rfl, hold]
      exact h
    have same : ∀ g, s.Knows w i g → State.Knows { s.goOn t r with buf := upd s.buf k buf, entry := upd s.entry e (.shared k) } w i g := by
      intro g K
      cases g
      all_goals first | exact K | exact fun e u hu => K e u (upd_none _ live hu)
    cases l
    case hkey e' =>
      by_cases hx : e' = e
      · subst hx; simp only [State.guard, he'] at K; simp only [State.guard, upd_same]; exact kM K
      · have := same _ K; simp only [State.guard] at this ⊢; rw [upd_ne _ _ hx]; exact this
    case stamp e' =>
      by_cases hx : e' = e
      · subst hx; simp only [State.guard, he'] at K; simp only [State.guard, upd_same]; exact kM K
      · have := same _ K; simp only [State.guard] at this ⊢; rw [upd_ne _ _ hx]; exact this
    case result e' =>
      by_cases hx : e' = e
      · subst hx; simp only [State.guard, he'] at K; simp only [State.guard, upd_same]; exact fun _ => kM K
      · have := same _ K; simp only [State.guard] at this ⊢; rw [upd_ne _ _ hx]; exact this
    all_goals exact same _ K
  · change e' ∈ upd s.buf k buf k' at h
    by_cases hx : k' = k
    · subst hx
      rw [upd_same] at h
      rcases hbuf e' h with rfl | h
      · exact upd_same _ _ _
      · exact sh _ _ (I.1.buf _ _ h)
    · rw [upd_ne _ _ hx] at h
      exact sh _ _ (I.1.buf _ _ h)
  · have hr' : some r = some r₂ := (upd_same s.todo t (some r)).symm.trans hr
    injection hr' with hr'; subst hr'
    refine ⟨_, ?_, W⟩
    refine ⟨A.held, A.ctx, fun c' h => ?_, fun e' k' h => ?_, fun e' h => ?_, A.box, A.boxr, fun h => ⟨fun u hu => ?_, (A.init h).2⟩⟩
    · exact (upd_ne _ _ h.1).trans (A.mine c' h.2)
    · rcases h with ⟨rfl, rfl⟩ | h
      · exact upd_same _ _ _
      · exact sh _ _ (A.pub _ _ h)
    · obtain ⟨⟨k', h1⟩, h2⟩ := A.res e' h
      exact ⟨⟨k', sh _ _ h1⟩, h2⟩
    · exact (upd_ne _ _ hu).trans ((A.init h).1 u hu)
  · refine A.keep (.inl rfl) (fun j => Iff.rfl)
      (fun c => id) (fun c' h => (upd_ne _ _ (fun e => ?_)).trans h) sh (fun e => id) (fun e k h => ⟨k, h⟩) (fun h => absurd h hi)
    rw [e, he'] at h; injection h with h; exact hu h.symm

theorem Inv.shrink {s : State} {k} {buf : List Nat} (I : Inv s) (hbuf : ∀ e ∈ buf, s.entry e = .shared k) : Inv { s with buf := upd s.buf k buf } := by
  refine ⟨I.1.silent rfl (fun i w l K => ?_) (fun k' e' h => ?_) I.1.cur I.1.fresh, fun t r h => ?_⟩
  · cases l <;> exact K
  · change e' ∈ upd s.buf k buf k' at h
    by_cases hx : k' = k
    · subst hx; rw [upd_same] at h; exact hbuf _ h
    · rw [upd_ne _ _ hx] at h; exact I.1.buf _ _ h
  · obtain ⟨V, A, W⟩ := I.2 t r h
    exact ⟨V, ⟨A.held, A.ctx, A.mine, A.pub, A.res, A.box, A.boxr, A.init⟩, W⟩

end Verif.Race

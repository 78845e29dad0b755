import Verif.Model.Pool
/-
C16: a context from the pool is as good as new. C50: exclusive ownership of pooled contexts.
-/
namespace Verif.Pooling

theorem Disciplined.init {log : List PEvent} {e : PEvent} (h : Disciplined (log ++ [e])) : Disciplined log := by
  intro pre x post hx h' hh
  exact h pre x (post ++ [e]) (by simp [hx]) h' hh

theorem Disciplined.last {log : List PEvent} {e : PEvent} (h : Disciplined (log ++ [e])) {h' : Nat} (he : e = .use h' ∨ e = .rel h') : .rel h' ∉ log :=
  h log e [] rfl h' he

/-- Holds in disciplined programs. -/
structure PInv (s : PState) : Prop where
  lt : ∀ h a : Nat, s.handles[h]? = some a → a < s.next
  plt : ∀ x ∈ s.pending ++ s.pooled, x.2 < s.next
  nodup : ((s.pending ++ s.pooled).map (·.2)).Nodup
  inj : ∀ h1 h2 a, Live s h1 a → Live s h2 a → h1 = h2
  free : ∀ h a, Live s h a → a ∉ (s.pending ++ s.pooled).map (·.2)
  clean : ∀ x ∈ s.pending ++ s.pooled, s.heap x.2 = newCtx
  acq : ∀ h a c, .acq h a c ∈ s.log → c = newCtx
  log : ∀ h, .rel h ∈ s.log → h < s.handles.length

theorem getElem?_snoc {l : List Nat} {x h a : Nat} (hh : (l ++ [x])[h]? = some a) : l[h]? = some a ∨ (h = l.length ∧ a = x) := by
  rcases Nat.lt_trichotomy h l.length with hl | hl | hl
  · rw [List.getElem?_append_left hl] at hh; exact .inl hh
  · subst hl
    rw [List.getElem?_append_right (Nat.le_refl _)] at hh
    simp at hh
    exact .inr ⟨rfl, hh.symm⟩
  · rw [List.getElem?_eq_none (by simp; omega)] at hh
    cases hh

theorem pinv {s : PState} (hr : PReach s) (hd : Disciplined s.log) : PInv s := by
  induction hr with
  | init => exact ⟨by simp, by simp, by simp, by simp [Live], by simp, by simp, by simp, by simp⟩
  | @step s s' _ st ih =>
    cases st with
    | new =>
      obtain I := ih hd.init
      have old : ∀ h a, Live { s with heap := s.write s.next newCtx, next := s.next + 1, handles := s.handles ++ [s.next], log := s.log ++ [.acq s.handles.length s.next newCtx] } h a →
          Live s h a ∨ (h = s.handles.length ∧ a = s.next) := by
        rintro h a ⟨h1, h2⟩
        rcases getElem?_snoc h1 with h1 | h1
        · exact .inl ⟨h1, fun h => h2 (List.mem_append_left _ h)⟩
        · exact .inr h1
      refine ⟨?_, ?_, I.nodup, ?_, ?_, ?_, ?_, ?_⟩
      · intro h a h1
        rcases getElem?_snoc h1 with h1 | ⟨_, rfl⟩
        · have := I.lt h a h1
          show a < s.next + 1
          omega
        · show s.next < s.next + 1
          omega
      · intro x hx
        have := I.plt x hx
        show x.2 < s.next + 1
        omega
      · intro h1 h2 a l1 l2
        rcases old h1 a l1 with l1 | ⟨rfl, rfl⟩
        · rcases old h2 a l2 with l2 | ⟨_, rfl⟩
          · exact I.inj h1 h2 a l1 l2
          · have := I.lt _ _ l1.1; omega
        · rcases old h2 _ l2 with l2 | ⟨rfl, _⟩
          · have := I.lt _ _ l2.1; omega
          · rfl
      · intro h a l
        rcases old h a l with l | ⟨_, rfl⟩
        · exact I.free h a l
        · intro hm
          obtain ⟨x, hx, e⟩ := List.mem_map.mp hm
          have := I.plt x hx
          omega
      · intro x hx
        have := I.plt x hx
        show s.write s.next newCtx x.2 = newCtx
        unfold PState.write
        rw [if_neg (by omega)]
        exact I.clean x hx
      · intro h a c hm
        rcases List.mem_append.mp hm with hm | hm
        · exact I.acq h a c hm
        · simp at hm; exact hm.2.2
      · intro h hm
        rcases List.mem_append.mp hm with hm | hm
        · have := I.log h hm
          simp only [List.length_append]
          omega
        · simp at hm
    | @get l r p a hp =>
      obtain I := ih hd.init
      have sub : ∀ x, x ∈ s.pending ++ (l ++ r) → x ∈ s.pending ++ s.pooled := by
        intro x hx
        rw [hp]
        simp only [List.mem_append, List.mem_cons] at hx ⊢
        rcases hx with h | h | h
        · exact .inl h
        · exact .inr (.inl h)
        · exact .inr (.inr (.inr h))
      have ma : a ∈ (s.pending ++ s.pooled).map (·.2) := by
        rw [hp]
        simp
      have nd : (a :: (s.pending ++ (l ++ r)).map (·.2)).Nodup := by
        have := I.nodup
        rw [hp] at this
        refine (List.Perm.nodup_iff ?_).mp this
        simp only [List.map_append, List.map_cons]
        rw [← List.append_assoc, ← List.append_assoc]
        exact List.perm_middle
      have old : ∀ h b, Live { s with pooled := l ++ r, handles := s.handles ++ [a], log := s.log ++ [.acq s.handles.length a (s.heap a)] } h b →
          Live s h b ∨ (h = s.handles.length ∧ b = a) := by
        rintro h b ⟨h1, h2⟩
        rcases getElem?_snoc h1 with h1 | h1
        · exact .inl ⟨h1, fun h => h2 (List.mem_append_left _ h)⟩
        · exact .inr h1
      have mem : (p, a) ∈ s.pending ++ s.pooled := by rw [hp]; simp
      refine ⟨?_, fun x hx => I.plt x (sub x hx), (List.nodup_cons.mp nd).2, ?_, ?_, fun x hx => I.clean x (sub x hx), ?_, ?_⟩
      · intro h b h1
        rcases getElem?_snoc h1 with h1 | ⟨_, rfl⟩
        · exact I.lt h b h1
        · exact I.plt (p, b) mem
      · intro h1 h2 b l1 l2
        rcases old h1 b l1 with k1 | ⟨rfl, rfl⟩
        · rcases old h2 b l2 with k2 | ⟨_, rfl⟩
          · exact I.inj h1 h2 b k1 k2
          · exact absurd ma (I.free _ _ k1)
        · rcases old h2 _ l2 with l2 | ⟨rfl, _⟩
          · exact absurd ma (I.free _ _ l2)
          · rfl
      · intro h b l'
        rcases old h b l' with l' | ⟨_, rfl⟩
        · intro hm
          obtain ⟨x, hx, e⟩ := List.mem_map.mp hm
          exact I.free h b l' (List.mem_map.mpr ⟨x, sub x hx, e⟩)
        · exact (List.nodup_cons.mp nd).1
      · intro h b c hm
        rcases List.mem_append.mp hm with hm | hm
        · exact I.acq h b c hm
        · simp at hm
          rw [hm.2.2]
          exact I.clean (p, a) mem
      · intro h hm
        rcases List.mem_append.mp hm with hm | hm
        · have := I.log h hm
          simp only [List.length_append]
          omega
        · simp at hm
    | @use h a c hh =>
      obtain I := ih hd.init
      have hl : Live s h a := ⟨hh, hd.last (.inl rfl)⟩
      have old : ∀ h' b, Live { s with heap := s.write a c, log := s.log ++ [.use h] } h' b → Live s h' b :=
        fun h' b l => ⟨l.1, fun h => l.2 (List.mem_append_left _ h)⟩
      refine ⟨I.lt, I.plt, I.nodup, fun h1 h2 b l1 l2 => I.inj h1 h2 b (old _ _ l1) (old _ _ l2), fun h b l => I.free h b (old _ _ l), ?_, ?_, ?_⟩
      · intro x hx
        show s.write a c x.2 = newCtx
        unfold PState.write
        rw [if_neg]
        · exact I.clean x hx
        · intro e
          exact I.free h a hl (List.mem_map.mpr ⟨x, hx, e⟩)
      · intro h b c hm
        rcases List.mem_append.mp hm with hm | hm
        · exact I.acq h b c hm
        · simp at hm
      · intro h hm
        rcases List.mem_append.mp hm with hm | hm
        · exact I.log h hm
        · simp at hm
    | @rel h a p hh =>
      obtain I := ih hd.init
      have hl : Live s h a := ⟨hh, hd.last (.inr rfl)⟩
      have old : ∀ h' b, Live { s with heap := s.write a (s.heap a).reset, pending := s.pending ++ [(p, a)], log := s.log ++ [.rel h] } h' b → Live s h' b ∧ h' ≠ h :=
        fun h' b l => ⟨⟨l.1, fun h => l.2 (List.mem_append_left _ h)⟩, fun e => l.2 (by subst e; simp)⟩
      have mem : ∀ x, x ∈ s.pending ++ [(p, a)] ++ s.pooled → x = (p, a) ∨ x ∈ s.pending ++ s.pooled := by
        intro x hx
        simp only [List.mem_append, List.mem_cons, List.not_mem_nil, or_false] at hx ⊢
        rcases hx with (h | h) | h
        · exact .inr (.inl h)
        · exact .inl h
        · exact .inr (.inr h)
      refine ⟨I.lt, ?_, ?_, fun h1 h2 b l1 l2 => I.inj h1 h2 b (old _ _ l1).1 (old _ _ l2).1, ?_, ?_, ?_, ?_⟩
      · intro x hx
        rcases mem x hx with rfl | hx
        · exact I.lt h a hh
        · exact I.plt x hx
      · show ((s.pending ++ [(p, a)] ++ s.pooled).map (·.2)).Nodup
        have : (a :: (s.pending ++ s.pooled).map (·.2)).Nodup := List.nodup_cons.mpr ⟨I.free h a hl, I.nodup⟩
        refine (List.Perm.nodup_iff ?_).mp this
        simp only [List.map_append, List.map_cons, List.append_assoc, List.cons_append, List.nil_append]
        exact List.perm_middle.symm
      · intro h' b l hm
        obtain ⟨l1, l2⟩ := old h' b l
        obtain ⟨x, hx, e⟩ := List.mem_map.mp hm
        rcases mem x hx with rfl | hx
        · exact l2 (I.inj h' h a (by rw [show a = b from e]; exact l1) hl)
        · exact I.free h' b l1 (List.mem_map.mpr ⟨x, hx, e⟩)
      · intro x hx
        show s.write a (s.heap a).reset x.2 = newCtx
        unfold PState.write
        split
        · rfl
        · rename_i hne
          rcases mem x hx with rfl | hx
          · exact absurd rfl hne
          · exact I.clean x hx
      · intro h' b c hm
        rcases List.mem_append.mp hm with hm | hm
        · exact I.acq h' b c hm
        · simp at hm
      · intro h' hm
        rcases List.mem_append.mp hm with hm | hm
        · exact I.log h' hm
        · simp at hm
          subst hm
          exact (List.getElem?_eq_some_iff.mp hh).1
    | @put l r p a hp =>
      obtain I := ih hd
      have mem : ∀ x, x ∈ l ++ r ++ (s.pooled ++ [(p, a)]) ↔ x ∈ s.pending ++ s.pooled := by
        intro x
        rw [hp]
        simp only [List.mem_append, List.mem_cons, List.not_mem_nil, or_false]
        constructor
        · rintro ((h | h) | h | h)
          · exact .inl (.inl h)
          · exact .inl (.inr (.inr h))
          · exact .inr h
          · exact .inl (.inr (.inl h))
        · rintro ((h | h | h) | h)
          · exact .inl (.inl h)
          · exact .inr (.inr h)
          · exact .inl (.inr h)
          · exact .inr (.inl h)
      have memm : ∀ b, b ∈ (l ++ r ++ (s.pooled ++ [(p, a)])).map (·.2) ↔ b ∈ (s.pending ++ s.pooled).map (·.2) := by
        intro b
        simp only [List.mem_map, mem]
      refine ⟨I.lt, fun x hx => I.plt x ((mem x).mp hx), ?_, I.inj, fun h b l' hm => I.free h b l' ((memm b).mp hm), fun x hx => I.clean x ((mem x).mp hx), I.acq, I.log⟩
      have := I.nodup
      refine (List.Perm.nodup_iff (List.Perm.map _ ?_)).mp this
      rw [hp]
      simp only [List.append_assoc, List.cons_append]
      refine List.Perm.append_left l ?_
      have := (List.perm_append_singleton (p, a) (r ++ s.pooled)).symm
      simpa using this
    | @drop l r x hp =>
      obtain I := ih hd
      have sub : ∀ y, y ∈ s.pending ++ (l ++ r) → y ∈ s.pending ++ s.pooled := by
        intro y hy
        rw [hp]
        simp only [List.mem_append, List.mem_cons] at hy ⊢
        rcases hy with h | h | h
        · exact .inl h
        · exact .inr (.inl h)
        · exact .inr (.inr (.inr h))
      refine ⟨I.lt, fun y hy => I.plt y (sub y hy), ?_, I.inj, fun h b l' hm => ?_, fun y hy => I.clean y (sub y hy), I.acq, I.log⟩
      · have := I.nodup
        rw [hp] at this
        refine this.sublist (List.Sublist.map _ ?_)
        exact List.Sublist.append (.refl _) (List.Sublist.append (.refl _) (List.sublist_cons_self ..))
      · obtain ⟨y, hy, e⟩ := List.mem_map.mp hm
        exact I.free h b l' (List.mem_map.mpr ⟨y, sub y hy, e⟩)

/-! ### C16 -/

/-- C16: whatever was done with contexts before they were released, every context handed out, from whatever pool, is in the state of a new one. -/
theorem C16_acquired_is_new {s : PState} (hr : PReach s) (hd : Disciplined s.log) {h a : Nat} {c : Ctx} (hm : .acq h a c ∈ s.log) : c = newCtx :=
  (pinv hr hd).acq h a c hm

/-- C16, behaviour: so every operation on it behaves as on a new one, and AcquireWithSrc as NewCtxWithSrc. -/
theorem C16_acquired_behaves {T : Tables} {H : Bytes → UInt64} {s : PState} (hr : PReach s) (hd : Disciplined s.log) {h a : Nat} {c : Ctx}
    (hm : .acq h a c ∈ s.log) (op : Op) (src : Bytes) :
    op.prog T H c = op.prog T H newCtx ∧ op.prog T H (acquireWithSrc c src) = op.prog T H (newCtxWithSrc src) := by
  rw [C16_acquired_is_new hr hd hm]
  exact ⟨rfl, rfl⟩

/-! ### C50 -/

/-- C50: as long as no handle is used or released after it was released, no two live handles denote the same context. -/
theorem C50_exclusive {s : PState} (hr : PReach s) (hd : Disciplined s.log) {h1 h2 a1 a2 : Nat} (l1 : Live s h1 a1) (l2 : Live s h2 a2) (hne : h1 ≠ h2) :
    a1 ≠ a2 := by
  rintro rfl
  exact hne ((pinv hr hd).inj h1 h2 a1 l1 l2)

/-- C50, isolation: a live context is changed by nothing but its holder's own calls: no other holder, no pool and no acquisition elsewhere. -/
theorem C50_isolated {s s' : PState} (hr : PReach s) (st : PStep s s') (hd : Disciplined s'.log) {h a : Nat} (l : Live s h a)
    (hn : s'.log ≠ s.log ++ [.use h]) (hn' : s'.log ≠ s.log ++ [.rel h]) : Live s' h a ∧ s'.heap a = s.heap a := by
  have hlt : h < s.handles.length := (List.getElem?_eq_some_iff.mp l.1).1
  have keep : ∀ x : Nat, (s.handles ++ [x])[h]? = some a := fun x => by rw [List.getElem?_append_left hlt]; exact l.1
  have other : ∀ h' b, Live s h' b → (h' = h → False) → a ≠ b := fun h' b l' hne e => by
    subst e
    exact hne ((pinv hr (by cases st <;> first | exact hd.init | exact hd)).inj h' h a l' l)
  cases st with
  | new =>
    refine ⟨⟨keep _, ?_⟩, ?_⟩
    · intro hm
      rcases List.mem_append.mp hm with hm | hm
      · exact l.2 hm
      · simp at hm
    · have := (pinv hr hd.init).lt h a l.1
      exact if_neg (by omega)
  | get hp =>
    refine ⟨⟨keep _, ?_⟩, rfl⟩
    intro hm
    rcases List.mem_append.mp hm with hm | hm
    · exact l.2 hm
    · simp at hm
  | @use h' b c hh =>
    have hne : h' ≠ h := fun e => hn (by subst e; rfl)
    refine ⟨⟨l.1, ?_⟩, if_neg (other h' b ⟨hh, hd.last (.inl rfl)⟩ hne)⟩
    intro hm
    rcases List.mem_append.mp hm with hm | hm
    · exact l.2 hm
    · simp at hm
  | @rel h' b p hh =>
    have hne : h' ≠ h := fun e => hn' (by subst e; rfl)
    refine ⟨⟨l.1, ?_⟩, if_neg (other h' b ⟨hh, hd.last (.inr rfl)⟩ hne)⟩
    intro hm
    rcases List.mem_append.mp hm with hm | hm
    · exact l.2 hm
    · simp at hm
      exact hne hm.symm
  | put hp => exact ⟨l, rfl⟩
  | drop hp => exact ⟨l, rfl⟩

/-- Acquire, use, Release, Acquire again: the same object comes back, and it is new again. -/
theorem demo_reuse (c : Ctx) : ∃ s, PReach s ∧ Disciplined s.log ∧ Live s 1 0 ∧ s.log = [.acq 0 0 newCtx, .use 0, .rel 0, .acq 1 0 newCtx] := by
  refine ⟨_, ((((PReach.init.step .new).step (.use (h := 0) (a := 0) c rfl)).step (.rel (h := 0) (a := 0) 7 rfl)).step
    (.put (l := []) (r := []) (p := 7) (a := 0) rfl)).step (.get (l := []) (r := []) (p := 7) (a := 0) rfl), ?_, ⟨rfl, by simp⟩, by
      simp [PState.write, Ctx.reset, Ctx.reset0, newCtx, Version.reset]⟩
  intro pre e post hp h he
  have : [PEvent.acq 0 0 newCtx, .use 0, .rel 0, .acq 1 0 (Ctx.reset c)] = pre ++ e :: post := hp
  rcases he with rfl | rfl
  · match pre, this with
    | [], h => cases h
    | [_], h => injection h with h1 h2; subst h1; simp
    | [_, _], h => injection h with _ h; injection h with _ h; cases h
    | [_, _, _], h => injection h with _ h; injection h with _ h; injection h with _ h; cases h
    | _ :: _ :: _ :: _ :: p, h => injection h with _ h; injection h with _ h; injection h with _ h; injection h with _ h; simp at h
  · match pre, this with
    | [], h => cases h
    | [_], h => injection h with _ h; cases h
    | [_, _], h => injection h with h1 h; injection h with h2 h; subst h1 h2; simp
    | [_, _, _], h => injection h with _ h; injection h with _ h; injection h with _ h; cases h
    | _ :: _ :: _ :: _ :: p, h => injection h with _ h; injection h with _ h; injection h with _ h; injection h with _ h; simp at h

/-- C50, the other half: after releasing one handle twice, two later acquisitions can return the same context. -/
theorem C50_double_release : ∃ s, PReach s ∧ Live s 1 0 ∧ Live s 2 0 ∧ ¬ Disciplined s.log := by
  refine ⟨_, ((((((PReach.init.step .new).step (.rel (h := 0) (a := 0) 7 rfl)).step (.rel (h := 0) (a := 0) 7 rfl)).step
    (.put (l := []) (r := [(7, 0)]) (p := 7) (a := 0) rfl)).step (.put (l := []) (r := []) (p := 7) (a := 0) rfl)).step
    (.get (l := []) (r := [(7, 0)]) (p := 7) (a := 0) rfl)).step (.get (l := []) (r := []) (p := 7) (a := 0) rfl), ⟨rfl, by simp⟩, ⟨rfl, by simp⟩, ?_⟩
  intro hd
  exact hd [.acq 0 0 newCtx, .rel 0] (.rel 0) _ rfl 0 (.inr rfl) (by simp)

/-- … and a use after release reaches a context that somebody else holds: the discipline is needed for C16, too. -/
theorem C16_use_after_release : ∃ s, PReach s ∧ ∃ c, .acq 1 0 c ∈ s.log ∧ c ≠ newCtx := by
  refine ⟨_, ((((PReach.init.step .new).step (.rel (h := 0) (a := 0) 7 rfl)).step (.use (h := 0) (a := 0) { newCtx with src := ascii "x" } rfl)).step
    (.put (l := []) (r := []) (p := 7) (a := 0) rfl)).step (.get (l := []) (r := []) (p := 7) (a := 0) rfl), { newCtx with src := ascii "x" }, ?_, by decide⟩
  simp [PState.write]

end Verif.Pooling

import Verif.Proofs.RaceFree
/-
C75: no data races.
-/
namespace Verif.Race

/-- C75. In a program that uses the library through contexts, each used by one goroutine at a time and passed on through the pool, a channel or a go
statement, however many goroutines there are and whatever they do, with the cleaner running and SetCache called at any time, be it with built-in
caches or with others that guard what they have with a lock, any two accesses of different goroutines to the same memory, one of them a write, are
ordered by happens-before. Missing: programs that get entries from the cache themselves, for which it fails
(`C75_refuted`). -/
theorem C75_race_free_partial {s : State} (h : Reachable false s) : ¬ HasRace s.trace := by
  have I : Inv s := by
    induction h with
    | init => exact inv_init
    | step _ st ih => exact inv_step ih st
  rintro ⟨i, j, t, u, w, w', l, hij, hi, hj, hne, hw, hn⟩
  exact hn (I.1.norace i j t u w w' l hij hi hj hne hw)

/-- An execution in which goroutines 0 and 1 and the cleaner, goroutine 9, use the same entry, and a context goes from 0 to 1 through the pool. -/
example : ∃ s, Reachable false s ∧
    (∃ i j m : Nat, i < j ∧ j < m ∧ s.trace[i]? = some (0, .acc true (.stamp 0)) ∧ s.trace[j]? = some (1, .acc true (.stamp 0)) ∧
      s.trace[m]? = some (9, .acc false (.stamp 0))) ∧
    (∃ i j : Nat, i < j ∧ s.trace[i]? = some (0, .acc true (.result 0)) ∧ s.trace[j]? = some (1, .acc false (.result 0))) ∧
    (∃ i j : Nat, i < j ∧ s.trace[i]? = some (0, .acc true (.ctx 0)) ∧ s.trace[j]? = some (1, .acc true (.ctx 0))) := by
  have h := Reachable.init (direct := false)
  replace h := h.step (t := 0) (.acc rfl)
  replace h := h.step (t := 0) (.acc rfl)
  replace h := h.step (t := 0) (.store rfl)
  replace h := h.step (t := 0) (.spawn (u := 1) rfl rfl)
  replace h := h.step (t := 0) (.newCtx (c := 0) rfl rfl)
  replace h := h.step (t := 0) (.acc rfl)
  replace h := h.step (t := 0) (.getter (c := 0) rfl rfl)
  replace h := h.step (t := 0) (.acc rfl)
  replace h := h.step (t := 0) (.find rfl rfl)
  replace h := h.step (t := 0) (.acc rfl)
  replace h := h.step (t := 0) (.acc rfl)
  replace h := h.step (t := 0) (.onceFirst rfl rfl)
  replace h := h.step (t := 0) (.lock rfl rfl)
  replace h := h.step (t := 0) (.acc rfl)
  replace h := h.step (t := 0) (.goClean (u := 9) rfl rfl)
  replace h := h.step (t := 0) (.unlock rfl)
  replace h := h.step (t := 0) (.onceEnd rfl)
  replace h := h.step (t := 0) (.lock rfl rfl)
  replace h := h.step (t := 0) (.miss rfl)
  replace h := h.step (t := 0) (.unlock rfl)
  replace h := h.step (t := 0) (.acc rfl)
  replace h := h.step (t := 0) (.acc rfl)
  replace h := h.step (t := 0) (.save (e := 0) rfl rfl)
  replace h := h.step (t := 0) (.acc rfl)
  replace h := h.step (t := 0) (.acc rfl)
  replace h := h.step (t := 0) (.set rfl rfl)
  replace h := h.step (t := 0) (.acc rfl)
  replace h := h.step (t := 0) (.onceSkip rfl rfl)
  replace h := h.step (t := 0) (.acc rfl)
  replace h := h.step (t := 0) (.acc rfl)
  replace h := h.step (t := 0) (.acc rfl)
  replace h := h.step (t := 0) (.lock rfl rfl)
  replace h := h.step (t := 0) (.acc rfl)
  replace h := h.step (t := 0) (.acc rfl)
  replace h := h.step (t := 0) (.append rfl)
  replace h := h.step (t := 0) (.acc rfl)
  replace h := h.step (t := 0) (.unlock rfl)
  replace h := h.step (t := 1) (.newCtx (c := 1) rfl rfl)
  replace h := h.step (t := 1) (.acc rfl)
  replace h := h.step (t := 1) (.getter (c := 1) rfl rfl)
  replace h := h.step (t := 1) (.acc rfl)
  replace h := h.step (t := 1) (.find rfl rfl)
  replace h := h.step (t := 1) (.acc rfl)
  replace h := h.step (t := 1) (.acc rfl)
  replace h := h.step (t := 1) (.onceSkip rfl rfl)
  replace h := h.step (t := 1) (.lock rfl rfl)
  replace h := h.step (t := 1) (.hit (e := 0) rfl (by decide))
  replace h := h.step (t := 1) (.acc rfl)
  replace h := h.step (t := 1) (.acc rfl)
  replace h := h.step (t := 1) (.unlock rfl)
  replace h := h.step (t := 1) (.acc rfl)
  replace h := h.step (t := 1) (.acc rfl)
  replace h := h.step (t := 0) (.release (c := 0) rfl rfl)
  replace h := h.step (t := 0) (.acc rfl)
  replace h := h.step (t := 0) (.put rfl)
  replace h := h.step (t := 1) (.acquire (c := 0) rfl rfl)
  replace h := h.step (t := 1) (.method (c := 0) rfl rfl)
  replace h := h.step (t := 1) (.acc rfl)
  replace h := h.step (t := 1) (.acc rfl)
  replace h := h.step (t := 9) (.clean rfl)
  replace h := h.step (t := 9) (.onceSkip rfl rfl)
  replace h := h.step (t := 9) (.lock rfl rfl)
  replace h := h.step (t := 9) (.sweep (es := [0]) (keep := []) rfl (by decide) (by decide))
  replace h := h.step (t := 9) (.acc rfl)
  replace h := h.step (t := 9) (.acc rfl)
  replace h := h.step (t := 9) (.shrink rfl)
  replace h := h.step (t := 9) (.unlock rfl)
  exact ⟨_, h, ⟨24, 38, 50, by decide, by decide, rfl, rfl, rfl⟩, ⟨19, 41, by decide, rfl, rfl⟩, ⟨43, 47, by decide, rfl, rfl⟩⟩

/-- An execution in which goroutine 0 gives the context 0 to goroutine 1 with the go statement, 1 stores an entry in a cache of the program's own and
sends the context back to 0, which then finds the entry. -/
example : ∃ s, Reachable false s ∧
    (∃ i j m : Nat, i < j ∧ j < m ∧ s.trace[i]? = some (0, .acc true (.ctx 0)) ∧ s.trace[j]? = some (1, .acc true (.ctx 0)) ∧
      s.trace[m]? = some (0, .acc true (.ctx 0))) ∧
    (∃ i j : Nat, i < j ∧ s.trace[i]? = some (1, .acc true (.result 0)) ∧ s.trace[j]? = some (0, .acc false (.result 0))) := by
  have h := Reachable.init (direct := false)
  replace h := h.step (t := 0) (.acc rfl)
  replace h := h.step (t := 0) (.acc rfl)
  replace h := h.step (t := 0) (.store rfl)
  replace h := h.step (t := 0) (.newCtx (c := 0) rfl rfl)
  replace h := h.step (t := 0) (.acc rfl)
  replace h := h.step (t := 0) (.setCache (b := 1) (k := 1) rfl rfl)
  replace h := h.step (t := 0) (.acc rfl)
  replace h := h.step (t := 0) (.store rfl)
  replace h := h.step (t := 0) (.hand (c := 0) (u := 1) rfl rfl rfl)
  replace h := h.step (t := 1) (.getter (c := 0) rfl rfl)
  replace h := h.step (t := 1) (.acc rfl)
  replace h := h.step (t := 1) (.findOwn rfl rfl)
  replace h := h.step (t := 1) (.acc rfl)
  replace h := h.step (t := 1) (.acc rfl)
  replace h := h.step (t := 1) (.lock rfl rfl)
  replace h := h.step (t := 1) (.miss rfl)
  replace h := h.step (t := 1) (.unlock rfl)
  replace h := h.step (t := 1) (.acc rfl)
  replace h := h.step (t := 1) (.acc rfl)
  replace h := h.step (t := 1) (.save (e := 0) rfl rfl)
  replace h := h.step (t := 1) (.acc rfl)
  replace h := h.step (t := 1) (.acc rfl)
  replace h := h.step (t := 1) (.setOwn rfl rfl)
  replace h := h.step (t := 1) (.acc rfl)
  replace h := h.step (t := 1) (.acc rfl)
  replace h := h.step (t := 1) (.lock rfl rfl)
  replace h := h.step (t := 1) (.append rfl)
  replace h := h.step (t := 1) (.acc rfl)
  replace h := h.step (t := 1) (.unlock rfl)
  replace h := h.step (t := 1) (.send (c := 0) rfl rfl)
  replace h := h.step (t := 0) (.acquire (c := 0) rfl rfl)
  replace h := h.step (t := 0) (.getter (c := 0) rfl rfl)
  replace h := h.step (t := 0) (.acc rfl)
  replace h := h.step (t := 0) (.findOwn rfl rfl)
  replace h := h.step (t := 0) (.acc rfl)
  replace h := h.step (t := 0) (.acc rfl)
  replace h := h.step (t := 0) (.lock rfl rfl)
  replace h := h.step (t := 0) (.hitOwn (e := 0) rfl (by decide))
  replace h := h.step (t := 0) (.unlock rfl)
  replace h := h.step (t := 0) (.acc rfl)
  replace h := h.step (t := 0) (.acc rfl)
  exact ⟨_, h, ⟨3, 15, 35, by decide, by decide, rfl, rfl, rfl⟩, ⟨17, 34, by decide, rfl, rfl⟩⟩

/-- Nothing happens after an access before the goroutine's next event. -/
theorem no_hb {τ : Trace} {i t w l} (hi : τ[i]? = some (t, .acc w l)) (hn : ∀ j x, i < j → τ[j]? ≠ some (t, x)) {j} : ¬ HB τ i j := by
  intro h
  generalize e : i = a at h
  induction h with
  | seq hl ha hj => subst e; rw [hi] at ha; injection ha with ha; injection ha with ha _; subst ha; exact hn _ _ hl hj
  | mutex hl ha hj => subst e; rw [hi] at ha; cases ha
  | atomic hl ha hj => subst e; rw [hi] at ha; cases ha
  | pool hl ha hj _ => subst e; rw [hi] at ha; cases ha
  | go hl ha hj => subst e; rw [hi] at ha; cases ha
  | trans _ _ ih _ => exact ih e

/-- C75 fails for programs that call GetCache().Get and look at the time stamp of the entry, as MarshalTo does: the time stamp is written by other calls
of Get under a lock the program does not hold. -/
theorem C75_refuted : ∃ s, Reachable true s ∧ HasRace s.trace := by
  have h := Reachable.init (direct := true)
  replace h := h.step (t := 0) (.acc rfl)
  replace h := h.step (t := 0) (.acc rfl)
  replace h := h.step (t := 0) (.store rfl)
  replace h := h.step (t := 0) (.spawn (u := 1) rfl rfl)
  replace h := h.step (t := 0) (.newCtx (c := 0) rfl rfl)
  replace h := h.step (t := 0) (.acc rfl)
  replace h := h.step (t := 0) (.getter (c := 0) rfl rfl)
  replace h := h.step (t := 0) (.acc rfl)
  replace h := h.step (t := 0) (.find rfl rfl)
  replace h := h.step (t := 0) (.acc rfl)
  replace h := h.step (t := 0) (.acc rfl)
  replace h := h.step (t := 0) (.onceFirst rfl rfl)
  replace h := h.step (t := 0) (.lock rfl rfl)
  replace h := h.step (t := 0) (.acc rfl)
  replace h := h.step (t := 0) (.goClean (u := 9) rfl rfl)
  replace h := h.step (t := 0) (.unlock rfl)
  replace h := h.step (t := 0) (.onceEnd rfl)
  replace h := h.step (t := 0) (.lock rfl rfl)
  replace h := h.step (t := 0) (.miss rfl)
  replace h := h.step (t := 0) (.unlock rfl)
  replace h := h.step (t := 0) (.acc rfl)
  replace h := h.step (t := 0) (.acc rfl)
  replace h := h.step (t := 0) (.save (e := 0) rfl rfl)
  replace h := h.step (t := 0) (.acc rfl)
  replace h := h.step (t := 0) (.acc rfl)
  replace h := h.step (t := 0) (.set rfl rfl)
  replace h := h.step (t := 0) (.acc rfl)
  replace h := h.step (t := 0) (.onceSkip rfl rfl)
  replace h := h.step (t := 0) (.acc rfl)
  replace h := h.step (t := 0) (.acc rfl)
  replace h := h.step (t := 0) (.acc rfl)
  replace h := h.step (t := 0) (.lock rfl rfl)
  replace h := h.step (t := 0) (.acc rfl)
  replace h := h.step (t := 0) (.acc rfl)
  replace h := h.step (t := 0) (.append rfl)
  replace h := h.step (t := 0) (.acc rfl)
  replace h := h.step (t := 0) (.unlock rfl)
  replace h := h.step (t := 0) (.user rfl rfl)
  replace h := h.step (t := 0) (.userFind rfl rfl)
  replace h := h.step (t := 0) (.acc rfl)
  replace h := h.step (t := 0) (.onceSkip rfl rfl)
  replace h := h.step (t := 0) (.lock rfl rfl)
  replace h := h.step (t := 0) (.userHit (e := 0) rfl (by decide))
  replace h := h.step (t := 0) (.acc rfl)
  replace h := h.step (t := 0) (.acc rfl)
  replace h := h.step (t := 0) (.unlock rfl)
  replace h := h.step (t := 0) (.acc rfl)
  replace h := h.step (t := 0) (.acc rfl)
  replace h := h.step (t := 1) (.user rfl rfl)
  replace h := h.step (t := 1) (.userFind rfl rfl)
  replace h := h.step (t := 1) (.acc rfl)
  replace h := h.step (t := 1) (.onceSkip rfl rfl)
  replace h := h.step (t := 1) (.lock rfl rfl)
  replace h := h.step (t := 1) (.userHit (e := 0) rfl (by decide))
  replace h := h.step (t := 1) (.acc rfl)
  replace h := h.step (t := 0) (.acc rfl)
  refine ⟨_, h, 44, 45, 1, 0, true, false, .stamp 0, by decide, rfl, rfl, by decide, .inl rfl, no_hb (t := 1) rfl ?_⟩
  intro j x hj hx
  have hl := get_lt hx
  have : j = 45 := by
    have : j < 46 := hl
    omega
  subst this
  cases hx

end Verif.Race

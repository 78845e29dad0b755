import Verif.Model.Batch
/-
A deterministic scheduler for the command line tool with one worker. Only used to exhibit concrete runs.
-/
namespace Verif.Cli

section
variable (T : Tables) (H : Bytes → UInt64) (lower : Bytes → Bytes) (rows : List Row)

/-- The next step inside the library for a worker with a job. -/
def Batch.tickJob (s : Batch) (r : Row) (job : Job) : Batch :=
  match s.sys.threads job.ctx with
  | .idle c =>
    match job.todo with
    | op :: rest => { s with
        jobs := s.put 0 (some { job with todo := rest }),
        sys := { s.sys with threads := s.sys.put job.ctx (.busy op (op.prog T H c)), log := s.sys.log ++ [.call job.ctx op] } }
    | [] =>
      match gotOf job.got with
      | some g => { s with jobs := s.put 0 none, cli := { s.cli with workers := [if errs lower r g = [] then .fin r g else .lock r g] } }
      | none => s
  | .busy op (.ret (c, some a)) => { s with
      jobs := s.put 0 (some { job with got := job.got ++ a.toList }),
      sys := { s.sys with threads := s.sys.put job.ctx (.idle c), log := s.sys.log ++ [.ret job.ctx op (some a)] } }
  | .busy _ (.ret (_, none)) => { s with panicked := true }
  | .busy op (.get k f) =>
    match (s.sys.cache.get H k 0).2 with
    | none => { s with sys := { s.sys with threads := s.sys.put job.ctx (.busy op (f .miss)), cache := (s.sys.cache.get H k 0).1 } }
    | some p => { s with sys := { s.sys with threads := s.sys.put job.ctx (.reading op k p f), cache := (s.sys.cache.get H k 0).1 } }
  | .busy op (.set k e p) =>
    match s.sys.cache.step H (.set k s.sys.next e 0) with
    | some c => { s with sys := { s.sys with threads := s.sys.put job.ctx (.busy op p), cache := c, next := s.sys.next + 1 } }
    | none => s
  | .reading op _ p f => { s with sys := { s.sys with threads := s.sys.put job.ctx (.busy op (f (.hit (s.sys.cache.heap p)))) } }
  | .crashed => s

/-- The next step. -/
def Batch.tick (s : Batch) : Batch :=
  match s.panicked, s.cli.workers with
  | false, [.recv] =>
    match s.cli.chan with
    | r :: rest => { s with cli := { s.cli with chan := rest, workers := [.work r] } }
    | [] =>
      match rows[s.cli.sent]?, s.cli.closed with
      | some r, false => { s with cli := { s.cli with chan := [r], sent := s.cli.sent + 1 } }
      | none, false => if s.cli.sent = rows.length then { s with cli := { s.cli with closed := true } } else s
      | _, true => { s with cli := { s.cli with workers := [.done] } }
  | false, [.work r] =>
    match s.jobs 0 with
    | some job => s.tickJob T H lower r job
    | none =>
      match s.sys.threads 0 with
      | .idle _ => { s with jobs := s.put 0 (some ⟨0, script r, []⟩) }
      | _ => s
  | false, [.lock r g] =>
    match s.cli.fmux with
    | none => { s with cli := { s.cli with workers := [.write r g (block lower r g)], fmux := some 0, written := s.cli.written ++ [(r, g)] } }
    | some _ => s
  | false, [.write r g (x :: xs)] => { s with cli := { s.cli with workers := [.write r g xs], out := s.cli.out ++ [x] } }
  | false, [.write r g []] => { s with cli := { s.cli with workers := [.fin r g], fmux := none } }
  | false, [.fin r g] => { s with cli := { s.cli with workers := [.recv], count := s.cli.count + 1, handled := s.cli.handled ++ [(r, g)] } }
  | _, _ => s

/-- Several steps. -/
def Batch.ticks : Nat → Batch → Batch
  | 0, s => s
  | n + 1, s => Batch.ticks n (s.tick T H lower rows)

end

section
variable {T : Tables} {H : Bytes → UInt64} {lower : Bytes → Bytes} {rows : List Row}

/-- Reachable with one worker, nobody else having a job. -/
def Lone (T : Tables) (H : Bytes → UInt64) (lower : Bytes → Bytes) (rows : List Row) (s : Batch) : Prop :=
  Batch.Reach T H lower rows 1 s ∧ ∀ k, k ≠ 0 → s.jobs k = none

theorem Lone.next {s s' : Batch} (h : Lone T H lower rows s) (st : Batch.Step T H lower rows 1 s s') (hj : ∀ k, k ≠ 0 → s'.jobs k = s.jobs k) :
    Lone T H lower rows s' := ⟨.step h.1 st, fun k hk => by rw [hj k hk]; exact h.2 k hk⟩

theorem put_ne {s : Batch} {j : Option Job} {k : Nat} (hk : k ≠ 0) : s.put 0 j k = s.jobs k := if_neg hk

theorem lone_job {s : Batch} {r : Row} {job : Job} (h : Lone T H lower rows s) (hp : s.panicked = false) (hw : s.cli.workers = [.work r])
    (hj : s.jobs 0 = some job) : Lone T H lower rows (s.tickJob T H lower r job) := by
  unfold Batch.tickJob
  split
  · rename_i c ht
    split
    · rename_i op rest ho
      exact h.next (.call hp hj ho ht) fun k hk => put_ne hk
    · rename_i ho
      split
      · rename_i g hg
        exact h.next (.compare (pre := []) (post := []) hp hw hj ho ht hg) fun k hk => put_ne hk
      · exact h
  · rename_i op c a ht
    exact h.next (.ret hp hj ht) fun k hk => put_ne hk
  · rename_i op c ht
    exact h.next (.panic hp hj ht) fun k hk => rfl
  · rename_i op k f ht
    split
    · rename_i hg
      exact h.next (.sys hp (.miss 0 ht hg) rfl) fun k hk => rfl
    · rename_i p hg
      exact h.next (.sys hp (.hit 0 ht hg) rfl) fun k hk => rfl
  · rename_i op k e p ht
    split
    · rename_i c hg
      exact h.next (.sys hp (.set 0 ht hg) rfl) fun k hk => rfl
    · exact h
  · rename_i op k p f ht
    exact h.next (.sys hp (.read ht) rfl) fun k hk => rfl
  · exact h

theorem lone_cli {s : Batch} {c : CState} (h : Lone T H lower rows s) (hp : s.panicked = false) (st : CStep lower rows 1 s.cli c)
    (hw : ∀ (i : Nat) r, s.cli.workers[i]? ≠ some (.work r)) : Lone T H lower rows { s with cli := c } :=
  h.next (.cli hp st fun i r e => absurd e (hw i r)) fun _ _ => rfl

theorem one_work {w : Worker} {l : List Worker} (hl : l = [w]) (hw : ∀ r, w ≠ .work r) (i : Nat) (r : Row) : l[i]? ≠ some (.work r) := by
  subst hl
  rcases i with _ | i
  · intro e; exact hw r (Option.some.inj e)
  · intro e; cases e

/-- The scheduler makes only steps of the program. -/
theorem lone_tick {s : Batch} (h : Lone T H lower rows s) : Lone T H lower rows (s.tick T H lower rows) := by
  unfold Batch.tick
  split
  · rename_i hp hw
    have hn := one_work hw (by intro r e; cases e)
    split
    · rename_i r rest hc
      exact lone_cli h hp (.recv (pre := []) (post := []) hw hc) hn
    · rename_i hc
      split
      · rename_i r h1 h2
        have := lone_cli h hp (.send h1 h2 (by rw [hc]; decide)) hn
        rw [hc] at this
        exact this
      · rename_i h1 h2
        split
        · rename_i h3
          exact lone_cli h hp (.close h3 h2) hn
        · exact h
      · rename_i h2
        exact lone_cli h hp (.stop (pre := []) (post := []) hw hc h2) hn
  · rename_i r hp hw
    split
    · rename_i job hj
      exact lone_job h hp hw hj
    · rename_i hj
      split
      · rename_i c ht
        refine h.next (.acquire (i := 0) (r := r) hp (by rw [hw]; rfl) hj ht fun k job hk => ?_) fun k hk => put_ne hk
        rcases Nat.eq_zero_or_pos k with rfl | hk0
        · rw [hj] at hk; cases hk
        · rw [h.2 k (by omega)] at hk; cases hk
      · exact h
  · rename_i r g hp hw
    split
    · rename_i hm
      exact lone_cli h hp (.lock (pre := []) (post := []) hw hm) (one_work hw (by intro r e; cases e))
    · exact h
  · rename_i r g x xs hp hw
    exact lone_cli h hp (.write (pre := []) (post := []) hw) (one_work hw (by intro r e; cases e))
  · rename_i r g hp hw
    exact lone_cli h hp (.unlock (pre := []) (post := []) hw) (one_work hw (by intro r e; cases e))
  · rename_i r g hp hw
    exact lone_cli h hp (.count (pre := []) (post := []) hw) (one_work hw (by intro r e; cases e))
  · exact h

theorem lone_ticks (n : Nat) {s : Batch} (h : Lone T H lower rows s) : Lone T H lower rows (s.ticks T H lower rows n) := by
  induction n generalizing s with
  | zero => exact h
  | succ n ih => exact ih (lone_tick h)

theorem lone_start : Lone T H lower rows (.start 1) := ⟨.init, fun _ _ => rfl⟩

end
end Verif.Cli

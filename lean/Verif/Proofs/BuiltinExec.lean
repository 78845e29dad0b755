import Verif.Model.Builtin
/-
A deterministic scheduler for executions with the built-in cache: whole operations one after another, with the clock at `now`. Only used to
exhibit concrete executions.
-/
namespace Verif

/-- Run a method to completion on a cache. `none`: the cache panicked. -/
def Prog.runCache {α : Type} (H : Bytes → UInt64) (now : Int64) : Prog α → CacheState → Ptr → Option (CacheState × Ptr × α)
  | .ret a, c, n => some (c, n, a)
  | .get k f, c, n =>
    match (c.get H k now).2 with
    | some p => (f (.hit ((c.get H k now).1.heap p))).runCache H now (c.get H k now).1 n
    | none => (f .miss).runCache H now (c.get H k now).1 n
  | .set k e p, c, n =>
    match c.step H (.set k n e now) with
    | some c' => p.runCache H now c' (n + 1)
    | none => none

/-- Context `t` performs `op` without interruption. -/
def BSys.exec (T : Tables) (H : Bytes → UInt64) (now : Int64) (s : BSys) (t : Nat) (op : Op) : BSys :=
  match s.threads t with
  | .idle c =>
    match (op.prog T H c).runCache H now s.cache s.next with
    | some r => { threads := s.put t (.idle r.2.2.1), cache := r.1, next := r.2.1, log := s.log ++ [.call t op, .ret t op r.2.2.2] }
    | none => s
  | _ => s

/-- A sequence of operations. -/
def BSys.execs (T : Tables) (H : Bytes → UInt64) (now : Int64) (s : BSys) (ops : List (Nat × Op)) : BSys :=
  ops.foldl (fun s x => s.exec T H now x.1 x.2) s

theorem exec_of {T : Tables} {H : Bytes → UInt64} {now : Int64} {s : BSys} {t : Nat} {op : Op} {c : Ctx} (h : s.threads t = .idle c)
    {r : CacheState × Ptr × Ctx × Option (Option Ans)} (hr : (op.prog T H c).runCache H now s.cache s.next = some r) :
    s.exec T H now t op = { threads := s.put t (.idle r.2.2.1), cache := r.1, next := r.2.1, log := s.log ++ [.call t op, .ret t op r.2.2.2] } := by
  unfold BSys.exec
  rw [h]; dsimp only
  rw [hr]

theorem bput_put (s : BSys) (t : Nat) (th th' : BThread) (c : CacheState) (n : Ptr) (l : List Event) :
    BSys.put ⟨s.put t th, c, n, l⟩ t th' = s.put t th' := by
  funext i; simp only [BSys.put]; split <;> rfl

theorem breach_run {T : Tables} {H : Bytes → UInt64} (now : Int64) (op : Op) (t : Nat) (p : Prog (Ctx × Option (Option Ans))) :
    ∀ s : BSys, BSys.Reach T H s → s.threads t = .busy op p → ∀ r, p.runCache H now s.cache s.next = some r →
      BSys.Reach T H ⟨s.put t (.idle r.2.2.1), r.1, r.2.1, s.log ++ [.ret t op r.2.2.2]⟩ := by
  induction p with
  | ret a =>
    intro s hr h r hp
    cases hp
    exact .step hr (.ret (c := a.1) (r := a.2) h)
  | get k f ih =>
    intro s hr h r hp
    rw [Prog.runCache] at hp
    split at hp
    · rename_i p hg
      have h1 := BSys.Reach.step hr (.hit now h hg)
      have h2 := BSys.Reach.step h1 (.read (t := t) (op := op) (k := k) (p := p) (f := f) (by simp [BSys.put]))
      have := ih _ _ h2 (by simp [BSys.put]) r hp
      simpa only [bput_put] using this
    · rename_i hg
      have := ih _ _ (.step hr (.miss now h hg)) (by simp [BSys.put]) r hp
      simpa only [bput_put] using this
  | set k e p ih =>
    intro s hr h r hp
    rw [Prog.runCache] at hp
    split at hp
    · rename_i c' hs
      have := ih _ (.step hr (.set now h hs)) (by simp [BSys.put]) r hp
      simpa only [bput_put] using this
    · cases hp

theorem breach_exec {T : Tables} {H : Bytes → UInt64} {now : Int64} {s : BSys} (hr : BSys.Reach T H s) (t : Nat) (op : Op) :
    BSys.Reach T H (s.exec T H now t op) := by
  unfold BSys.exec
  split
  · rename_i c h
    split
    · rename_i r hr'
      have := breach_run now op t _ _ (.step hr (.call op h)) (by simp [BSys.put]) r hr'
      rw [bput_put, List.append_assoc] at this
      exact this
    · exact hr
  · exact hr

theorem breach_execs {T : Tables} {H : Bytes → UInt64} {now : Int64} (ops : List (Nat × Op)) : ∀ {s : BSys}, BSys.Reach T H s → BSys.Reach T H (s.execs T H now ops) := by
  induction ops with
  | nil => intro s h; exact h
  | cons x ops ih => intro s h; exact ih (breach_exec h x.1 x.2)

end Verif

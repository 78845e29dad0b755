import Verif.Spec.Trace
/-
A deterministic scheduler: run whole operations one after another over a cache that keeps the latest entry of every key.
Only used to exhibit concrete executions (`Sys.Reach`).
-/
namespace Verif

/-- Run a method to completion, answering Gets from `hist`. -/
def Prog.runHist {α : Type} : Prog α → List (Bytes × CacheEntry) → List (Bytes × CacheEntry) × α
  | .ret a, h => (h, a)
  | .get k f, h =>
    match h.reverse.find? (fun x => x.1 = k) with
    | some x => (f (.hit x.2)).runHist h
    | none => (f .miss).runHist h
  | .set k e p, h => p.runHist (h ++ [(k, e)])

/-- Context `t` performs `op` without interruption. -/
def Sys.exec (T : Tables) (H : Bytes → UInt64) (s : Sys) (t : Nat) (op : Op) : Sys :=
  match s.threads t with
  | .idle c =>
    let r := (op.prog T H c).runHist s.hist
    { threads := fun i => if i = t then .idle r.2.1 else s.threads i, hist := r.1, log := s.log ++ [.call t op, .ret t op r.2.2] }
  | .busy _ _ => s

/-- A sequence of operations. -/
def Sys.execs (T : Tables) (H : Bytes → UInt64) (s : Sys) (ops : List (Nat × Op)) : Sys :=
  ops.foldl (fun s x => s.exec T H x.1 x.2) s

theorem put_put (s : Sys) (t : Nat) (th th' : Thread) (h : List (Bytes × CacheEntry)) (l : List Event) :
    Sys.put ⟨s.put t th, h, l⟩ t th' = s.put t th' := by
  funext i; simp only [Sys.put]; split <;> rfl

theorem reach_run {T : Tables} {H : Bytes → UInt64} (op : Op) (t : Nat) (p : Prog (Ctx × Option (Option Ans))) :
    ∀ s : Sys, Sys.Reach T H s → s.threads t = .busy op p →
      Sys.Reach T H ⟨s.put t (.idle (p.runHist s.hist).2.1), (p.runHist s.hist).1, s.log ++ [.ret t op (p.runHist s.hist).2.2]⟩ := by
  induction p with
  | ret a =>
    intro s hr h
    exact .step hr (.ret (c := a.1) (r := a.2) h)
  | get k f ih =>
    intro s hr h
    rw [Prog.runHist]
    split
    · rename_i x hx
      have hm := List.mem_of_find?_eq_some hx
      have hk := List.find?_some hx
      have hk : x.1 = k := by simpa using hk
      have hmem : (k, x.2) ∈ s.hist := by rw [← hk]; simpa using hm
      have := ih (.hit x.2) _ (.step hr (.getHit h x.2 x.2 hmem rfl)) (by simp [Sys.put])
      simpa only [put_put] using this
    · have := ih .miss _ (.step hr (.getMiss h)) (by simp [Sys.put])
      simpa only [put_put] using this
  | set k e p ih =>
    intro s hr h
    have := ih _ (.step hr (.set h)) (by simp [Sys.put])
    simpa only [put_put, Prog.runHist] using this

theorem reach_exec {T : Tables} {H : Bytes → UInt64} {s : Sys} (hr : Sys.Reach T H s) (t : Nat) (op : Op) :
    Sys.Reach T H (s.exec T H t op) := by
  unfold Sys.exec
  split
  · rename_i c h
    have := reach_run op t _ _ (.step hr (.call op h)) (by simp [Sys.put]; rfl)
    rw [put_put, List.append_assoc] at this
    exact this
  · exact hr

theorem reach_execs {T : Tables} {H : Bytes → UInt64} (ops : List (Nat × Op)) : ∀ {s : Sys}, Sys.Reach T H s → Sys.Reach T H (s.execs T H ops) := by
  induction ops with
  | nil => intro s h; exact h
  | cons x ops ih => intro s h; exact ih (reach_exec h x.1 x.2)

/-- All configurations in force at a getter call of the log, computed. -/
def usedList : List Event → List Event → List Req
  | _, [] => []
  | pre, e :: log =>
    let rest := usedList (pre ++ [e]) log
    match e with
    | .call t (.get _) => reqOf pre t :: rest
    | _ => rest

theorem mem_usedList {q : Req} : ∀ (log pre : List Event), (∃ a b t g, log = a ++ .call t (.get g) :: b ∧ reqOf (pre ++ a) t = q) → q ∈ usedList pre log := by
  intro log
  induction log with
  | nil => rintro pre ⟨a, b, t, g, h, -⟩; simp at h
  | cons e log ih =>
    rintro pre ⟨a, b, t, g, h, hq⟩
    cases a with
    | nil =>
      simp only [List.nil_append, List.cons.injEq] at h
      rw [h.1, usedList]
      simp only [List.append_nil] at hq
      simp [hq]
    | cons x a =>
      simp only [List.cons_append, List.cons.injEq] at h
      have := ih (pre ++ [e]) ⟨a, b, t, g, h.2, by rw [h.1]; simpa using hq⟩
      unfold usedList
      split
      · exact List.mem_cons_of_mem _ this
      · exact this

theorem used_mem {log : List Event} {q : Req} (h : Used log q) : q ∈ usedList [] log := by
  obtain ⟨a, b, t, g, h1, h2⟩ := h
  exact mem_usedList log [] ⟨a, b, t, g, h1, by simpa using h2⟩

end Verif

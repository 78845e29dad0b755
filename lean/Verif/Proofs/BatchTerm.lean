import Verif.Proofs.Batch
import Verif.Props.Panics
/-
The command line tool makes only finitely many steps, apart from those of the cache's cleaner.
-/
namespace Verif.Cli

/-- `s'` is `s` after a pass of the cleaner (cache.go:29-37, 70-88). -/
def Batch.CleanOnly (s s' : Batch) : Prop := ∃ now, s' = { s with sys := { s.sys with cache := s.sys.cache.clean now } }

/-- At most `n` cache accesses on every path. -/
def Deep {α : Type} : Nat → Prog α → Prop
  | _, .ret _ => True
  | n, .get _ f => 0 < n ∧ ∀ r, Deep (n - 1) (f r)
  | n, .set _ _ p => 0 < n ∧ Deep (n - 1) p

theorem deep_mono {α : Type} {p : Prog α} : ∀ {n m : Nat}, n ≤ m → Deep n p → Deep m p := by
  induction p with
  | ret => intros; trivial
  | get k f ih => intro n m h hd; exact ⟨by have := hd.1; omega, fun r => ih r (by omega) (hd.2 r)⟩
  | set k e p ih => intro n m h hd; exact ⟨by have := hd.1; omega, ih (by omega) hd.2⟩

theorem deep_within {α : Type} {k : Bytes} {Q : α → Prop} {p : Prog α} : ∀ {a b : Nat}, p.Within k Q a b → Deep (a + b) p := by
  induction p with
  | ret => intros; trivial
  | get k' f ih =>
    intro a b h
    obtain ⟨-, h1, h2⟩ := h
    exact ⟨by omega, fun r => deep_mono (by omega) (ih r (h2 r))⟩
  | set k' e p ih =>
    intro a b h
    obtain ⟨-, h1, h2⟩ := h
    exact ⟨by omega, deep_mono (by omega) (ih h2)⟩

section
variable {T : Tables} {H : Bytes → UInt64} {lower : Bytes → Bytes} {rows : List Row} {threads : Nat}

theorem deep_op (op : Op) (c : Ctx) : Deep 4 (op.prog T H c) := by
  have h := deep_within (C57_traffic (T := T) (H := H) op c)
  refine deep_mono ?_ h
  unfold traffic
  split <;> omega

/-- How many steps a context has still to make for the current call. -/
inductive Cost : BThread → Nat → Prop where
  | idle {c} : Cost (.idle c) 0
  | busy {op p d} (h : Deep d p) : Cost (.busy op p) (2 * d + 1)
  | reading {op k p f d} (h : ∀ r, Deep d (f r)) : Cost (.reading op k p f) (2 * d + 2)
  | crashed : Cost .crashed 0

theorem cost_exists {b : BSys} (hr : BSys.Reach T H b) : ∀ t, ∃ n, Cost (b.threads t) n := by
  have put : ∀ {b : BSys} {t0 : Nat} {th : BThread} {n : Nat}, Cost th n → (∀ t, ∃ n, Cost (b.threads t) n) → ∀ t, ∃ n, Cost (b.put t0 th t) n := by
    intro b t0 th n h ih t
    unfold BSys.put
    split
    · exact ⟨n, h⟩
    · exact ih t
  induction hr with
  | init => exact fun _ => ⟨0, .idle⟩
  | @step s s' _ st ih =>
    cases st with
    | call op h => exact put (.busy (deep_op op _)) ih
    | @miss t op k f now h hg =>
      obtain ⟨n, hn⟩ := ih t
      rw [h] at hn
      cases hn with
      | busy hd => exact put (.busy (hd.2 .miss)) ih
    | @hit t op k f p now h hg =>
      obtain ⟨n, hn⟩ := ih t
      rw [h] at hn
      cases hn with
      | busy hd => exact put (.reading hd.2) ih
    | @read t op k p f h =>
      obtain ⟨n, hn⟩ := ih t
      rw [h] at hn
      cases hn with
      | reading hd => exact put (.busy (hd _)) ih
    | @set t op k e p c now h hs =>
      obtain ⟨n, hn⟩ := ih t
      rw [h] at hn
      cases hn with
      | busy hd => exact put (.busy hd.2) ih
    | crash now h hs => exact put .crashed ih
    | clean now => exact ih
    | ret h => exact put .idle ih

/-- How many steps worker `i` has still to make for its row, at most. -/
def JobCost (s : Batch) (i n : Nat) : Prop :=
  match s.jobs i with
  | none => n = 121
  | some job => ∃ m, Cost (s.sys.threads job.ctx) m ∧ n = 10 * job.todo.length + m

/-- Steps until the next step of `CState.weight`. -/
def Fuel (threads : Nat) (s : Batch) (m : Nat) : Prop :=
  ∃ φ : Nat → Nat, (∀ i, JobCost s i (φ i)) ∧ m = s.cli.todo + ((List.range threads).map φ).sum

theorem fuel_exists {s : Batch} (hr : Batch.Reach T H lower rows threads s) : ∃ m, Fuel threads s m := by
  have h : ∀ i, ∃ n, JobCost s i n := by
    intro i
    unfold JobCost
    cases s.jobs i with
    | none => exact ⟨_, rfl⟩
    | some job =>
      obtain ⟨m, hm⟩ := cost_exists (batch_sys hr) job.ctx
      exact ⟨_, m, hm, rfl⟩
  exact ⟨_, fun i => (h i).choose, fun i => (h i).choose_spec, rfl⟩

theorem sum_le {φ ψ : Nat → Nat} (h : ∀ k, ψ k ≤ φ k) : ∀ l : List Nat, (l.map ψ).sum ≤ (l.map φ).sum
  | [] => Nat.le_refl _
  | x :: l => by
    have := h x
    have := sum_le h l
    simp only [List.map_cons, List.sum_cons]
    omega

theorem sum_lt {φ ψ : Nat → Nat} {i : Nat} (h : ∀ k, ψ k ≤ φ k) (hi : ψ i < φ i) : ∀ {l : List Nat}, i ∈ l → (l.map ψ).sum < (l.map φ).sum
  | x :: l, hm => by
    have h1 := h x
    have h2 := sum_le h l
    simp only [List.map_cons, List.sum_cons]
    rcases List.mem_cons.mp hm with rfl | hm
    · omega
    · have := sum_lt h hi hm
      omega

/-- Closer to the end. -/
def Down (rows : List Row) (threads : Nat) (s s' : Batch) : Prop :=
  s'.cli.weight rows < s.cli.weight rows ∨ (s'.cli.weight rows = s.cli.weight rows ∧ ∀ m, Fuel threads s m → ∃ m', m' < m ∧ Fuel threads s' m')

/-- One worker gets on with its row. -/
theorem down_job {s s' : Batch} {i : Nat} (hi : i < threads) (hc : s'.cli = s.cli)
    (ho : ∀ k n, k ≠ i → JobCost s k n → JobCost s' k n) (hd : ∀ n, JobCost s i n → ∃ n', n' < n ∧ JobCost s' i n') : Down rows threads s s' := by
  right
  rw [hc]
  refine ⟨rfl, ?_⟩
  rintro m ⟨φ, h1, rfl⟩
  obtain ⟨n', h2, h3⟩ := hd _ (h1 i)
  refine ⟨_, ?_, fun k => if k = i then n' else φ k, fun k => ?_, rfl⟩
  · rw [hc]
    have := sum_lt (φ := φ) (ψ := fun k => if k = i then n' else φ k) (i := i)
      (fun k => by
        by_cases hk : k = i
        · subst hk; simp only [if_true]; omega
        · simp only [if_neg hk]; omega)
      (by simp only [if_true]; exact h2) (List.mem_range.mpr hi)
    omega
  · by_cases hk : k = i
    · subst hk; simp only [if_true]; exact h3
    · simp only [if_neg hk]; exact ho k _ hk (h1 k)

/-- A worker's context makes a step. -/
theorem down_sys {s : Batch} {b' : BSys} {i : Nat} {job : Job} {th : BThread} (I : BatchInv (fun _ _ _ => True) True rows s) (hi : i < threads)
    (hj : s.jobs i = some job) (hb : b'.threads = s.sys.put job.ctx th) (hd : ∀ n, Cost (s.sys.threads job.ctx) n → ∃ n', n' < n ∧ Cost th n') :
    Down rows threads s { s with sys := b' } := by
  refine down_job hi rfl ?_ ?_
  · intro k n hk h
    unfold JobCost at h ⊢
    cases hjk : s.jobs k with
    | none => simp only [hjk] at h ⊢; exact h
    | some j =>
      simp only [hjk] at h ⊢
      rw [hb, BSys.put, if_neg]
      · exact h
      · exact fun e => hk (I.inj k i j job hjk hj e)
  · intro n h
    unfold JobCost at h ⊢
    simp only [hj] at h ⊢
    obtain ⟨m, h1, rfl⟩ := h
    obtain ⟨n', h2, h3⟩ := hd m h1
    refine ⟨_, ?_, n', ?_, rfl⟩
    · omega
    · rw [hb, BSys.put, if_pos rfl]; exact h3

theorem worker_lt {s : Batch} (hr : Batch.Reach T H lower rows threads s) {i : Nat} {w : Worker} (h : s.cli.workers[i]? = some w) : i < threads := by
  rw [← (cinv (batch_cli hr)).len]
  rcases Nat.lt_or_ge i s.cli.workers.length with h' | h'
  · exact h'
  · rw [List.getElem?_eq_none h'] at h; cases h

theorem inv_true {s : Batch} (hr : Batch.Reach T H lower rows threads s) : BatchInv (fun _ _ _ => True) True rows s :=
  batch_inv_gen hr fun _ _ => by intros; exact ⟨fun _ _ => trivial, fun _ => trivial⟩

theorem down_cli {s : Batch} {c' : CState} (st : CStep lower rows threads s.cli c') : Down rows threads s { s with cli := c' } := by
  rcases weight_step st with h | ⟨h1, h2⟩
  · exact .inl h
  · refine .inr ⟨h1, ?_⟩
    rintro m ⟨φ, h3, rfl⟩
    refine ⟨_, ?_, φ, h3, rfl⟩
    exact Nat.add_lt_add_right h2 _

theorem cost_get {op : Op} {k : Bytes} {f : GetResp → Prog (Ctx × Option (Option Ans))} (r : GetResp) (n : Nat) (hn : Cost (.busy op (.get k f)) n) :
    ∃ n', n' < n ∧ Cost (.busy op (f r)) n' := by
  cases hn with
  | busy hd => exact ⟨_, by have := hd.1; omega, .busy (hd.2 r)⟩

theorem cost_hit {op : Op} {k : Bytes} {p : Ptr} {f : GetResp → Prog (Ctx × Option (Option Ans))} (n : Nat) (hn : Cost (.busy op (.get k f)) n) :
    ∃ n', n' < n ∧ Cost (.reading op k p f) n' := by
  cases hn with
  | busy hd => exact ⟨_, by have := hd.1; omega, .reading hd.2⟩

theorem cost_read {op : Op} {k : Bytes} {p : Ptr} {f : GetResp → Prog (Ctx × Option (Option Ans))} (r : GetResp) (n : Nat) (hn : Cost (.reading op k p f) n) :
    ∃ n', n' < n ∧ Cost (.busy op (f r)) n' := by
  cases hn with
  | reading hd => exact ⟨_, by omega, .busy (hd r)⟩

theorem cost_set {op : Op} {k : Bytes} {e : CacheEntry} {p : Prog (Ctx × Option (Option Ans))} (n : Nat) (hn : Cost (.busy op (.set k e p)) n) :
    ∃ n', n' < n ∧ Cost (.busy op p) n' := by
  cases hn with
  | busy hd => exact ⟨_, by have := hd.1; omega, .busy hd.2⟩

theorem cost_crash {op : Op} {k : Bytes} {e : CacheEntry} {p : Prog (Ctx × Option (Option Ans))} (n : Nat) (hn : Cost (.busy op (.set k e p)) n) :
    ∃ n', n' < n ∧ Cost .crashed n' := by
  cases hn with
  | busy hd => exact ⟨0, by omega, .crashed⟩

theorem cost_sys {b b' : BSys} (st : BSys.Step T H b b') (hl : b'.log = b.log) :
    (∃ now, b' = { b with cache := b.cache.clean now }) ∨
    ∃ t th, b'.threads = b.put t th ∧ (∀ c, b.threads t ≠ .idle c) ∧ ∀ n, Cost (b.threads t) n → ∃ n', n' < n ∧ Cost th n' := by
  have lne : ∀ {l : List Event} {e : Event}, l ++ [e] ≠ l := by
    intro l e h
    have := congrArg List.length h
    simp at this
  cases st with
  | call op h => exact absurd hl lne
  | @miss t op k f now h hg =>
    refine .inr ⟨t, _, rfl, fun c e => (by rw [h] at e; cases e), by rw [h]; exact cost_get _⟩
  | @hit t op k f p now h hg =>
    refine .inr ⟨t, _, rfl, fun c e => (by rw [h] at e; cases e), by rw [h]; exact cost_hit⟩
  | @read t op k p f h =>
    refine .inr ⟨t, _, rfl, fun c e => (by rw [h] at e; cases e), by rw [h]; exact cost_read _⟩
  | @set t op k e p c now h hs =>
    refine .inr ⟨t, _, rfl, fun c e => (by rw [h] at e; cases e), by rw [h]; exact cost_set⟩
  | @crash t op k e p now h hs =>
    refine .inr ⟨t, _, rfl, fun c e => (by rw [h] at e; cases e), by rw [h]; exact cost_crash⟩
  | clean now => exact .inl ⟨now, rfl⟩
  | ret h => exact absurd hl lne

/-- Every step is one of the cleaner, or a panic, or leads closer to the end. -/
theorem down_step {s s' : Batch} (hr : Batch.Reach T H lower rows threads s) (st : Batch.Step T H lower rows threads s s') :
    s.CleanOnly s' ∨ s'.panicked = true ∨ Down rows threads s s' := by
  have I := inv_true hr
  have lt : ∀ {i job}, s.jobs i = some job → i < threads := by
    intro i job hj
    obtain ⟨r, hw, -⟩ := I.job i job hj
    exact worker_lt hr hw
  have other : ∀ {i k : Nat} {n : Nat} {j j' : Job} {b' : BSys} {th : BThread}, k ≠ i → s.jobs i = some j → b'.threads = s.sys.put j.ctx th → JobCost s k n →
      JobCost { s with jobs := s.put i (some j'), sys := b' } k n := by
    intro i k n j j' b' th hk hj hb h
    unfold JobCost at h ⊢
    simp only [Batch.put, if_neg hk]
    cases hjk : s.jobs k with
    | none => simp only [hjk] at h ⊢; exact h
    | some jk =>
      simp only [hjk] at h ⊢
      rw [hb, BSys.put, if_neg]
      · exact h
      · exact fun e => hk (I.inj k i jk j hjk hj e)
  cases st with
  | cli hp st hw => exact .inr (.inr (down_cli st))
  | sys hp st hl =>
    rcases cost_sys st hl with ⟨now, rfl⟩ | ⟨t, th, h1, h2, h3⟩
    · exact .inl ⟨now, rfl⟩
    · right; right
      by_cases hj : ∃ i job, s.jobs i = some job ∧ job.ctx = t
      · obtain ⟨i, job, hj, rfl⟩ := hj
        exact down_sys I (lt hj) hj h1 h3
      · obtain ⟨c, hc⟩ := I.free t fun i j h e => hj ⟨i, j, h, e⟩
        exact absurd hc (h2 c)
  | @acquire i r t c hp hw hj ht hf =>
    right; right
    refine down_job (worker_lt hr hw) rfl ?_ ?_
    · intro k n hk h
      unfold JobCost at h ⊢
      simp only [Batch.put, if_neg hk]
      exact h
    · intro n h
      unfold JobCost at h ⊢
      simp only [hj] at h
      subst h
      simp only [Batch.put, if_true]
      refine ⟨120, by omega, 0, ?_, by rw [script_length]⟩
      rw [ht]; exact .idle
  | @call i job op rest c hp hj ho ht =>
    right; right
    refine down_job (lt hj) rfl (fun k n hk h => other hk hj rfl h) ?_
    intro n h
    unfold JobCost at h ⊢
    simp only [hj] at h
    obtain ⟨m, h1, rfl⟩ := h
    simp only [Batch.put, if_true, BSys.put]
    refine ⟨_, ?_, _, .busy (deep_op op c), rfl⟩
    rw [ho, List.length_cons]
    omega
  | @ret i job op c a hp hj ht =>
    right; right
    refine down_job (lt hj) rfl (fun k n hk h => other hk hj rfl h) ?_
    intro n h
    unfold JobCost at h ⊢
    simp only [hj] at h
    obtain ⟨m, h1, rfl⟩ := h
    simp only [Batch.put, if_true, BSys.put]
    refine ⟨_, ?_, 0, .idle, rfl⟩
    rw [ht] at h1
    cases h1
    omega
  | panic hp hj ht => exact .inr (.inl rfl)
  | @compare r g pre post job c hp hw hj hd ht hg =>
    right; right; left
    have hlt : (if errs lower r g = [] then Worker.fin r g else .lock r g).weight < 7 := by
      split <;> simp only [Worker.weight] <;> omega
    simp only [CState.weight, hw, List.map_append, List.map_cons, List.sum_append, List.sum_cons]
    have : (Worker.work r).weight = 7 := rfl
    omega

theorem step_alive {s s' : Batch} (st : Batch.Step T H lower rows threads s s') : s.panicked = false := by
  cases st <;> assumption

/-- The cleaner changes nothing about that. -/
theorem fuel_clean {s s' : Batch} (h : s.CleanOnly s') {m : Nat} : Fuel threads s m ↔ Fuel threads s' m := by
  obtain ⟨now, rfl⟩ := h
  exact Iff.rfl

theorem weight_clean {s s' : Batch} (h : s.CleanOnly s') : s'.cli = s.cli := by
  obtain ⟨now, rfl⟩ := h
  rfl

/-- A context whose call goes on is not where it was. -/
theorem moved {b b' : BSys} {t : Nat} {th : BThread} (hr : BSys.Reach T H b) (hb : b'.threads = b.put t th)
    (hd : ∀ n, Cost (b.threads t) n → ∃ n', n' < n ∧ Cost th n') : b'.threads ≠ b.threads := by
  intro e
  rw [hb] at e
  have h : th = b.threads t := by rw [← congrFun e t, BSys.put, if_pos rfl]
  obtain ⟨m, hm⟩ := cost_exists hr t
  induction m using Nat.strongRecOn with
  | ind m ih =>
    obtain ⟨m', h1, h2⟩ := hd m hm
    exact ih m' h1 (h ▸ h2)

/-- So a step that leads closer to the end is not one of the cleaner. -/
theorem down_not_clean {s s' : Batch} (hr : Batch.Reach T H lower rows threads s) (h : Down rows threads s s') : ¬ s.CleanOnly s' := by
  intro hc
  rcases h with h | ⟨-, h⟩
  · rw [weight_clean hc] at h
    exact Nat.lt_irrefl _ h
  · obtain ⟨m, hm⟩ := fuel_exists hr
    induction m using Nat.strongRecOn with
    | ind m ih =>
      obtain ⟨m', h1, h2⟩ := h m hm
      exact ih m' h1 ((fuel_clean hc).mpr h2)

end
end Verif.Cli

import Verif.Model.Lock
import Verif.Proofs.CacheHistory
/-
Invariants of the cache's locking.
-/
namespace Verif.Locking
open Spec

/-- The goroutine holds the inner mutex of `sync.Once`. -/
def PC.HoldsO : PC → Prop
  | .onceIn _ | .initLock _ | .initBody _ | .initUnlock _ | .onceSet _ | .onceUnlock _ => True
  | _ => False

/-- The goroutine holds the cache's mutex. -/
def PC.HoldsM : PC → Prop
  | .initBody _ | .initUnlock _ | .body _ | .unlock _ _ => True
  | _ => False

/-- What a goroutine's position says about initialisation. -/
def PC.Phase (done ready : Bool) : PC → Prop
  | .initLock _ | .initBody _ => done = false ∧ ready = false
  | .initUnlock _ | .onceSet _ => done = false ∧ ready = true
  | .onceUnlock _ | .lock _ | .body _ | .unlock _ _ | .ret _ _ => done = true
  | _ => True

/-- Between making the map and setting the flag. -/
def PC.Mid : PC → Prop
  | .initUnlock _ | .onceSet _ => True
  | _ => False

/-- The operation a goroutine called and that had no effect yet. -/
def PC.pending : PC → Option CacheOp
  | .once op | .onceLock op | .onceIn op | .initLock op | .initBody op | .initUnlock op | .onceSet op | .onceUnlock op | .lock op | .body op | .crashed op => some op
  | _ => none

/-- The operations that took effect, in that order. -/
def effects (l : List LEvent) : List CacheOp := l.filterMap fun
  | .eff _ op _ => some op
  | _ => none

/-- The operations called, in that order. -/
def calls (l : List LEvent) : List CacheOp := l.filterMap fun
  | .call _ op => some op
  | _ => none

theorem effects_append (a b) : effects (a ++ b) = effects a ++ effects b := List.filterMap_append
theorem calls_append (a b) : calls (a ++ b) = calls a ++ calls b := List.filterMap_append

theorem getElem?_repl {l pre post : List PC} {a : PC} (h : l = pre ++ a :: post) (b : PC) (i : Nat) :
    (pre ++ b :: post)[i]? = if i = pre.length then some b else l[i]? := by
  subst h
  by_cases hi : i = pre.length
  · subst hi; simp
  · rw [if_neg hi]
    by_cases h2 : i < pre.length
    · rw [List.getElem?_append_left h2, List.getElem?_append_left h2]
    · rw [List.getElem?_append_right (by omega), List.getElem?_append_right (by omega)]
      obtain ⟨k, hk⟩ : ∃ k, i - pre.length = k + 1 := ⟨i - pre.length - 1, by omega⟩
      rw [hk]; rfl

theorem getElem?_at {l pre post : List PC} {a : PC} (h : l = pre ++ a :: post) : l[pre.length]? = some a := by
  subst h; simp

theorem split_at {l : List PC} {i : Nat} {a : PC} (h : l[i]? = some a) : ∃ pre post, l = pre ++ a :: post ∧ pre.length = i := by
  obtain ⟨hi, rfl⟩ := List.getElem?_eq_some_iff.mp h
  exact ⟨l.take i, l.drop (i + 1), by simp, by simp; omega⟩

/-- A mutex: its owner is the one goroutine at a holding position. -/
structure Mutex (holds : PC → Prop) (owner : Option Nat) (th : List PC) : Prop where
  own : ∀ i p, th[i]? = some p → holds p → owner = some i
  held : ∀ i, owner = some i → ∃ p, th[i]? = some p ∧ holds p

section
variable {holds : PC → Prop} {owner : Option Nat} {th pre post : List PC} {a : PC}

theorem Mutex.same (hm : Mutex holds owner th) (h : th = pre ++ a :: post) {b : PC} (hab : holds a ↔ holds b) : Mutex holds owner (pre ++ b :: post) := by
  constructor
  · intro i p
    rw [getElem?_repl h]
    split
    · rename_i hi
      intro e hp; cases e; subst hi
      exact hm.own _ _ (getElem?_at h) (hab.mpr hp)
    · exact hm.own i p
  · intro i hi
    obtain ⟨p, h1, h2⟩ := hm.held i hi
    by_cases e : i = pre.length
    · subst e
      rw [getElem?_at h] at h1; cases h1
      exact ⟨b, by rw [getElem?_repl h, if_pos rfl], hab.mp h2⟩
    · exact ⟨p, by rw [getElem?_repl h, if_neg e]; exact h1, h2⟩

theorem Mutex.acquire (hm : Mutex holds none th) (h : th = pre ++ a :: post) {b : PC} (hb : holds b) : Mutex holds (some pre.length) (pre ++ b :: post) := by
  constructor
  · intro i p
    rw [getElem?_repl h]
    split
    · rename_i hi; intro _ _; rw [hi]
    · intro h1 h2; cases hm.own i p h1 h2
  · intro i hi
    cases hi
    exact ⟨b, by rw [getElem?_repl h, if_pos rfl], hb⟩

theorem Mutex.release (hm : Mutex holds owner th) (h : th = pre ++ a :: post) (ha : holds a) {b : PC} (hb : ¬ holds b) : Mutex holds none (pre ++ b :: post) := by
  have ho := hm.own _ _ (getElem?_at h) ha
  constructor
  · intro i p
    rw [getElem?_repl h]
    split
    · intro e hp; cases e; exact absurd hp hb
    · rename_i hi
      intro h1 h2
      have := hm.own i p h1 h2
      rw [ho] at this; cases this; exact absurd rfl hi
  · intro i hi; cases hi

/-- Two holders are the same goroutine. -/
theorem Mutex.unique (hm : Mutex holds owner th) {i j : Nat} {p q : PC} (h1 : th[i]? = some p) (h2 : th[j]? = some q) (hp : holds p) (hq : holds q) : i = j := by
  have a := hm.own i p h1 hp
  have b := hm.own j q h2 hq
  rw [a] at b; exact Option.some.inj b

end

/-- The invariant. -/
structure LInv (H : Bytes → UInt64) (s : LState) : Prop where
  om : Mutex PC.HoldsO s.om s.threads
  mux : Mutex PC.HoldsM s.mux s.threads
  phase : ∀ (i : Nat) p, s.threads[i]? = some p → p.Phase s.done s.ready
  ready : s.done = true → s.ready = true
  mid : s.ready = true → s.done = false → ∃ (i : Nat) (p : PC), s.threads[i]? = some p ∧ p.Mid
  inits : s.inits = if s.ready = true then 1 else 0
  fresh : s.ready = false → effects s.log = [] ∧ s.cache = .empty
  run : CacheState.run H (effects s.log) = some s.cache
  perm : (calls s.log).Perm (effects s.log ++ s.threads.filterMap PC.pending)

theorem phase_repl {s : LState} {pre post : List PC} {a b : PC} (h : s.threads = pre ++ a :: post) {d r : Bool}
    (hp : ∀ (i : Nat) p, s.threads[i]? = some p → i ≠ pre.length → p.Phase d r) (hb : b.Phase d r) :
    ∀ (i : Nat) p, (pre ++ b :: post)[i]? = some p → p.Phase d r := by
  intro i p
  rw [getElem?_repl h]
  split
  · intro e; cases e; exact hb
  · rename_i hi; intro e; exact hp i p e hi

theorem mid_repl {s : LState} {pre post : List PC} {a b : PC} (h : s.threads = pre ++ a :: post)
    (hm : ∃ (i : Nat) (p : PC), s.threads[i]? = some p ∧ p.Mid) (hab : a.Mid → b.Mid) :
    ∃ (i : Nat) (p : PC), (pre ++ b :: post)[i]? = some p ∧ p.Mid := by
  obtain ⟨i, p, h1, h2⟩ := hm
  by_cases e : i = pre.length
  · subst e
    rw [getElem?_at h] at h1; cases h1
    exact ⟨pre.length, b, by rw [getElem?_repl h, if_pos rfl], hab h2⟩
  · exact ⟨i, p, by rw [getElem?_repl h, if_neg e]; exact h1, h2⟩

theorem pending_repl {pre post : List PC} {a b : PC} (h : a.pending = b.pending) :
    (pre ++ b :: post).filterMap PC.pending = (pre ++ a :: post).filterMap PC.pending := by
  rw [List.filterMap_append, List.filterMap_append, List.filterMap_cons, List.filterMap_cons, h]

theorem pending_take {pre post : List PC} {a b : PC} {op : CacheOp} (ha : a.pending = some op) (hb : b.pending = none) :
    ((pre ++ a :: post).filterMap PC.pending).Perm (op :: (pre ++ b :: post).filterMap PC.pending) := by
  rw [List.filterMap_append, List.filterMap_append, List.filterMap_cons, List.filterMap_cons, ha, hb]
  exact List.perm_middle

theorem linv_start (H) (n : Nat) : LInv H (.start n) := by
  have hi : ∀ (i : Nat) p, (LState.start n).threads[i]? = some p → p = .idle := by
    intro i p hp
    have := List.mem_of_getElem? hp
    exact (List.mem_replicate.mp this).2
  refine ⟨⟨?_, ?_⟩, ⟨?_, ?_⟩, ?_, ?_, fun h => (by cases h), rfl, fun _ => ⟨rfl, rfl⟩, rfl, ?_⟩
  · intro i p hp h; rw [hi i p hp] at h; cases h
  · intro i h; cases h
  · intro i p hp h; rw [hi i p hp] at h; cases h
  · intro i h; cases h
  · intro i p hp; rw [hi i p hp]; trivial
  · intro h; cases h
  · show List.Perm [] ([] ++ (List.replicate n PC.idle).filterMap PC.pending)
    rw [List.nil_append, List.filterMap_replicate_of_none rfl]

theorem linv_call {H} {s : LState} {op : CacheOp} {pre post : List PC} (hv : LInv H s) (h : s.threads = pre ++ .idle :: post) :
    LInv H { s with threads := pre ++ .once op :: post, log := s.log ++ [.call pre.length op] } := by
  have he : effects (s.log ++ [.call pre.length op]) = effects s.log := by rw [effects_append]; exact List.append_nil _
  refine ⟨hv.om.same h Iff.rfl, hv.mux.same h Iff.rfl, phase_repl h (fun i p e _ => hv.phase i p e) trivial, hv.ready, fun a b => mid_repl h (hv.mid a b) (fun h => h), hv.inits, ?_, ?_, ?_⟩
  · show _ → effects _ = [] ∧ _; rw [he]; exact hv.fresh
  · show CacheState.run H (effects _) = _; rw [he]; exact hv.run
  · show (calls _).Perm (effects _ ++ _)
    rw [he, calls_append]
    have h1 : ((pre ++ .once op :: post).filterMap PC.pending).Perm (op :: s.threads.filterMap PC.pending) := by
      rw [h]; exact pending_take rfl rfl
    refine List.Perm.trans ?_ (List.Perm.append_left _ h1.symm)
    refine List.Perm.trans ?_ List.perm_middle.symm
    show (calls s.log ++ [op]).Perm _
    exact (List.perm_append_comm (l₁ := calls s.log) (l₂ := [op])).trans (hv.perm.cons op)

theorem linv_step {H} {s s' : LState} (hv : LInv H s) (st : LStep H s s') : LInv H s' := by
  have same : ∀ {pre post a b} (h : s.threads = pre ++ a :: post), PC.pending a = PC.pending b →
      (calls s.log).Perm (effects s.log ++ (pre ++ b :: post).filterMap PC.pending) := by
    intro pre post a b h hp
    rw [pending_repl hp, ← h]; exact hv.perm
  have ph : ∀ {pre post a b} (h : s.threads = pre ++ a :: post), PC.Phase s.done s.ready b →
      ∀ (i : Nat) p, (pre ++ b :: post)[i]? = some p → p.Phase s.done s.ready := fun h hb => phase_repl h (fun i p e _ => hv.phase i p e) hb
  have mi : ∀ {pre post a b} (h : s.threads = pre ++ a :: post), (PC.Mid a → PC.Mid b) → s.ready = true → s.done = false →
      ∃ (i : Nat) (p : PC), (pre ++ b :: post)[i]? = some p ∧ p.Mid := fun h hab a b => mid_repl h (hv.mid a b) hab
  -- no other goroutine is in a phase of initialisation when one holds the inner mutex
  have other : ∀ {pre post a} (h : s.threads = pre ++ a :: post), PC.HoldsO a → ∀ (i : Nat) p, s.threads[i]? = some p → i ≠ pre.length → ¬ PC.HoldsO p :=
    fun h ha i p e hi hp => hi (hv.om.unique e (getElem?_at h) hp ha)
  cases st with
  | fast h hd => exact ⟨hv.om.same h Iff.rfl, hv.mux.same h Iff.rfl, ph h hd, hv.ready, mi h (fun h => h), hv.inits, hv.fresh, hv.run, same h rfl⟩
  | slow h hd => exact ⟨hv.om.same h Iff.rfl, hv.mux.same h Iff.rfl, ph h trivial, hv.ready, mi h (fun h => h), hv.inits, hv.fresh, hv.run, same h rfl⟩
  | onceLock h hm =>
    have := hv.om; rw [hm] at this
    exact ⟨this.acquire h trivial, hv.mux.same h Iff.rfl, ph h trivial, hv.ready, mi h (fun h => h), hv.inits, hv.fresh, hv.run, same h rfl⟩
  | again h hd => exact ⟨hv.om.same h Iff.rfl, hv.mux.same h Iff.rfl, ph h hd, hv.ready, mi h (fun h => h), hv.inits, hv.fresh, hv.run, same h rfl⟩
  | first h hd =>
    rename_i op pre post
    refine ⟨hv.om.same h Iff.rfl, hv.mux.same h Iff.rfl, ph h ?_, hv.ready, mi h (fun h => h), hv.inits, hv.fresh, hv.run, same h rfl⟩
    refine ⟨hd, ?_⟩
    cases hr : s.ready with
    | false => rfl
    | true =>
      obtain ⟨i, p, h1, h2⟩ := hv.mid hr hd
      have ho : p.HoldsO := by revert h2; cases p <;> simp [PC.Mid, PC.HoldsO]
      have := hv.om.unique h1 (getElem?_at h) ho trivial
      subst this
      rw [getElem?_at h] at h1; cases h1; cases h2
  | initLock h hm =>
    have hp := hv.phase _ _ (getElem?_at h)
    have := hv.mux; rw [hm] at this
    exact ⟨hv.om.same h Iff.rfl, this.acquire h trivial, ph h hp, hv.ready, mi h (fun h => h), hv.inits, hv.fresh, hv.run, same h rfl⟩
  | initBody h =>
    rename_i op pre post
    obtain ⟨h1, h2⟩ := hv.phase _ _ (getElem?_at h)
    obtain ⟨e1, e2⟩ := hv.fresh h2
    refine ⟨hv.om.same h Iff.rfl, hv.mux.same h Iff.rfl, phase_repl h ?_ ⟨h1, rfl⟩, fun _ => rfl, fun _ _ => ⟨pre.length, .initUnlock op, (by show (pre ++ PC.initUnlock op :: post)[_]? = _; rw [getElem?_repl h, if_pos rfl]), trivial⟩, ?_, fun h => (by cases h), ?_, same h rfl⟩
    · intro i p e hi
      have := other h trivial i p e hi
      have hp := hv.phase i p e
      revert this hp
      cases p <;> simp [PC.HoldsO, PC.Phase]
    · show s.inits + 1 = _
      rw [hv.inits, h2]; rfl
    · show CacheState.run H (effects s.log) = some _
      rw [hv.run, e2]; rfl
  | initUnlock h =>
    have hp := hv.phase _ _ (getElem?_at h)
    exact ⟨hv.om.same h Iff.rfl, hv.mux.release h trivial (fun h => h), ph h hp, hv.ready, mi h (fun h => h), hv.inits, hv.fresh, hv.run, same h rfl⟩
  | onceSet h =>
    obtain ⟨h1, h2⟩ := hv.phase _ _ (getElem?_at h)
    refine ⟨hv.om.same h Iff.rfl, hv.mux.same h Iff.rfl, phase_repl h ?_ rfl, fun _ => h2, fun _ h => (by cases h), hv.inits, hv.fresh, hv.run, same h rfl⟩
    intro i p e hi
    have := other h trivial i p e hi
    have hp := hv.phase i p e
    revert this hp
    cases p <;> simp [PC.HoldsO, PC.Phase]
  | onceUnlock h =>
    have hp := hv.phase _ _ (getElem?_at h)
    exact ⟨hv.om.release h trivial (fun h => h), hv.mux.same h Iff.rfl, ph h hp, hv.ready, mi h (fun h => h), hv.inits, hv.fresh, hv.run, same h rfl⟩
  | lock h hm =>
    have hp := hv.phase _ _ (getElem?_at h)
    have := hv.mux; rw [hm] at this
    exact ⟨hv.om.same h Iff.rfl, this.acquire h trivial, ph h hp, hv.ready, mi h (fun h => h), hv.inits, hv.fresh, hv.run, same h rfl⟩
  | body h hr hc =>
    rename_i op pre post c
    have hp := hv.phase _ _ (getElem?_at h)
    have he : effects (s.log ++ [.eff pre.length op (result H s.cache op)]) = effects s.log ++ [op] := by rw [effects_append]; rfl
    refine ⟨hv.om.same h Iff.rfl, hv.mux.same h Iff.rfl, ph h hp, hv.ready, mi h (fun h => h), hv.inits, ?_, ?_, ?_⟩
    · intro h'; have h' : s.ready = false := h'; rw [hr] at h'; cases h'
    · show CacheState.run H (effects _) = some c
      rw [he, run_snoc, hv.run]; exact hc
    · show (calls _).Perm (effects _ ++ _)
      rw [he, calls_append]
      show (calls s.log ++ []).Perm _
      rw [List.append_nil, List.append_assoc]
      refine hv.perm.trans (List.Perm.append_left _ ?_)
      rw [h]; exact pending_take rfl rfl
  | crash h hc =>
    rename_i op pre post
    exact ⟨hv.om.same h Iff.rfl, hv.mux.release h trivial (fun h => h), ph h trivial, hv.ready, mi h (fun h => h), hv.inits, hv.fresh, hv.run, same h rfl⟩
  | unlock h =>
    have hp := hv.phase _ _ (getElem?_at h)
    exact ⟨hv.om.same h Iff.rfl, hv.mux.release h trivial (fun h => h), ph h hp, hv.ready, mi h (fun h => h), hv.inits, hv.fresh, hv.run, same h rfl⟩
  | ret h =>
    rename_i op r pre post
    have he : effects (s.log ++ [.ret pre.length op r]) = effects s.log := by rw [effects_append]; exact List.append_nil _
    have hk : calls (s.log ++ [.ret pre.length op r]) = calls s.log := by rw [calls_append]; exact List.append_nil _
    refine ⟨hv.om.same h Iff.rfl, hv.mux.same h Iff.rfl, ph h trivial, hv.ready, mi h (fun h => h), hv.inits, ?_, ?_, ?_⟩
    · show _ → effects _ = [] ∧ _; rw [he]; exact hv.fresh
    · show CacheState.run H (effects _) = _; rw [he]; exact hv.run
    · show (calls _).Perm (effects _ ++ _); rw [he, hk]; exact same h rfl

end Verif.Locking

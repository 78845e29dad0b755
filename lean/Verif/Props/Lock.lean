import Verif.Proofs.Lock
import Verif.Props.Cache
/-
Property C52: concurrent use of the built-in cache, for any number of goroutines and every interleaving.
-/
namespace Verif.Locking
open Spec

variable {H : Bytes → UInt64} {n : Nat}

theorem linv {s : LState} (hr : LReach H n s) : LInv H s := by
  induction hr with
  | init => exact linv_start H n
  | call _ h ih => exact linv_call ih h
  | step _ st ih => exact linv_step ih st

/-- Reads or writes the map and the slice. -/
def PC.Inside : PC → Prop
  | .initBody _ | .body _ => True
  | _ => False

/-- C52: no two goroutines are inside the critical sections at once. -/
theorem C52_exclusive {s : LState} (hr : LReach H n s) {i j : Nat} {p q : PC} (hi : s.threads[i]? = some p) (hj : s.threads[j]? = some q)
    (hp : p.Inside) (hq : q.Inside) : i = j := by
  have e : ∀ {p : PC}, p.Inside → p.HoldsM := by intro p; cases p <;> simp [PC.Inside, PC.HoldsM]
  exact (linv hr).mux.unique hi hj (e hp) (e hq)

/-- C52: the cache changes only in a step of the goroutine that owns the mutex. -/
theorem C52_under_lock {s s' : LState} (hr : LReach H n s) (st : LStep H s s') (hne : s'.cache ≠ s.cache) :
    ∃ i p, s.mux = some i ∧ s.threads[i]? = some p ∧ p.Inside ∧ s'.threads[i]? ≠ some p := by
  have hv := linv hr
  cases st with
  | initBody h =>
    refine ⟨_, _, hv.mux.own _ _ (getElem?_at h) trivial, getElem?_at h, trivial, ?_⟩
    rw [getElem?_repl h, if_pos rfl]; intro e; cases e
  | body h hr hc =>
    refine ⟨_, _, hv.mux.own _ _ (getElem?_at h) trivial, getElem?_at h, trivial, ?_⟩
    rw [getElem?_repl h, if_pos rfl]; intro e; cases e
  | _ => exact absurd rfl hne

/-- C52: initialisation (and with it the start of the cleaner goroutine) runs at most once, and has run before any operation takes effect. -/
theorem C52_init_once {s : LState} (hr : LReach H n s) : s.inits ≤ 1 ∧ (effects s.log ≠ [] → s.inits = 1) ∧
    ∀ (i : Nat) op, s.threads[i]? = some (.body op) → s.inits = 1 := by
  have hv := linv hr
  rw [hv.inits]
  refine ⟨by split <;> omega, fun h => ?_, fun i op h => ?_⟩
  · cases hs : s.ready with
    | true => rfl
    | false => exact absurd (hv.fresh hs).1 h
  · rw [hv.ready (hv.phase i _ h)]; rfl

/-! ### One operation at a time -/

/-- C52: whatever the interleaving, the cache is what the operations make of it one after the other, in the order in which they took effect. -/
theorem C52_sequential {s : LState} (hr : LReach H n s) : CacheState.run H (effects s.log) = some s.cache := (linv hr).run

theorem snoc_split {α : Type} {l pre post : List α} {y a : α} (h : l ++ [y] = pre ++ a :: post) : (∃ post', l = pre ++ a :: post') ∨ (l = pre ∧ y = a) := by
  rcases List.eq_nil_or_concat post with rfl | ⟨p', x, rfl⟩
  · have h2 := List.append_inj_right' h rfl
    cases h2
    exact .inr ⟨List.append_inj_left' h rfl, rfl⟩
  · left
    refine ⟨p', List.append_inj_left' (s₁ := l) (t₁ := [y]) (t₂ := [x]) ?_ rfl⟩
    rw [h, List.concat_eq_append]; simp

/-- C52: and each operation's result is the sequential one. -/
theorem C52_results {s : LState} (hr : LReach H n s) {pre post : List LEvent} {t : Nat} {op : CacheOp} {r : Res}
    (h : s.log = pre ++ .eff t op r :: post) : ∃ c, CacheState.run H (effects pre) = some c ∧
      ∀ key now, op = .get key now → r = (c.get H key now).2 := by
  induction hr generalizing post with
  | init => cases pre <;> cases h
  | call hr' hth ih =>
    rcases snoc_split h with ⟨p', h'⟩ | ⟨_, h'⟩
    · exact ih h'
    · cases h'
  | step hr' st ih =>
    have hrun := (linv hr').run
    cases st with
    | body hth hrd hc =>
      rcases snoc_split h with ⟨p', h'⟩ | ⟨h1, h'⟩
      · exact ih h'
      · cases h'
        rw [← h1]
        exact ⟨_, hrun, by rintro key now rfl; rfl⟩
    | ret hth =>
      rcases snoc_split h with ⟨p', h'⟩ | ⟨_, h'⟩
      · exact ih h'
      · cases h'
    | _ => exact ih h

/-- The goroutine of an event. -/
def LEvent.thread : LEvent → Nat
  | .call t _ | .eff t _ _ | .ret t _ _ => t

/-- The events of one goroutine. -/
def mine (t : Nat) (l : List LEvent) : List LEvent := l.filter fun e => decide (e.thread = t)

/-- Completed calls: called, took effect once, returned that result. -/
inductive Rounds (t : Nat) : List LEvent → Prop where
  | nil : Rounds t []
  | round {l op r} (h : Rounds t l) : Rounds t (l ++ [.call t op, .eff t op r, .ret t op r])

/-- What a goroutine in the middle of a call has done so far. -/
def PC.partialLog (t : Nat) : PC → List LEvent
  | .idle => []
  | .unlock op r | .ret op r => [.call t op, .eff t op r]
  | .once op | .onceLock op | .onceIn op | .initLock op | .initBody op | .initUnlock op | .onceSet op | .onceUnlock op | .lock op | .body op
  | .crashed op => [.call t op]

/-- C52: every call takes effect exactly once, between the call and the return, and returns the result of that effect. -/
theorem C52_each_call {s : LState} (hr : LReach H n s) {t : Nat} {p : PC} (hp : s.threads[t]? = some p) :
    ∃ l, Rounds t l ∧ mine t s.log = l ++ p.partialLog t := by
  have repl : ∀ {s : LState} {pre post : List PC} {a b : PC} {evs : List LEvent} (h : s.threads = pre ++ a :: post),
      (∀ {t p}, s.threads[t]? = some p → ∃ l, Rounds t l ∧ mine t s.log = l ++ p.partialLog t) →
      (∀ e ∈ evs, LEvent.thread e = pre.length) →
      (∀ l, Rounds pre.length l → ∃ l', Rounds pre.length l' ∧ l ++ a.partialLog pre.length ++ evs = l' ++ b.partialLog pre.length) →
      ∀ {t p}, (pre ++ b :: post)[t]? = some p → ∃ l, Rounds t l ∧ mine t (s.log ++ evs) = l ++ p.partialLog t := by
    intro s pre post a b evs h ih hev hstep t p hp
    rw [getElem?_repl h] at hp
    split at hp
    · rename_i ht; subst ht; cases hp
      obtain ⟨l, h1, h2⟩ := ih (getElem?_at h)
      obtain ⟨l', h3, h4⟩ := hstep l h1
      refine ⟨l', h3, ?_⟩
      have : mine pre.length evs = evs := List.filter_eq_self.mpr fun e he => decide_eq_true (hev e he)
      rw [← h4, ← h2, mine, List.filter_append, ← mine, ← mine, this]
    · rename_i ht
      obtain ⟨l, h1, h2⟩ := ih hp
      refine ⟨l, h1, ?_⟩
      have : mine t evs = [] := List.filter_eq_nil_iff.mpr fun e he hd => ht ((of_decide_eq_true hd).symm.trans (hev e he))
      rw [mine, List.filter_append, ← mine, ← mine, this, List.append_nil, h2]
  have repl0 : ∀ {s : LState} {pre post : List PC} {a b : PC} (h : s.threads = pre ++ a :: post),
      (∀ {t p}, s.threads[t]? = some p → ∃ l, Rounds t l ∧ mine t s.log = l ++ p.partialLog t) →
      (a.partialLog pre.length = b.partialLog pre.length) →
      ∀ {t p}, (pre ++ b :: post)[t]? = some p → ∃ l, Rounds t l ∧ mine t s.log = l ++ p.partialLog t := by
    intro s pre post a b h ih hab t p hp
    have := repl (evs := []) (b := b) h ih (fun _ h => (by cases h)) (fun l hl => ⟨l, hl, by rw [hab, List.append_nil]⟩) hp
    rwa [List.append_nil] at this
  induction hr generalizing t p with
  | init =>
    have := List.mem_of_getElem? hp
    rw [(List.mem_replicate.mp this).2]
    exact ⟨[], .nil, rfl⟩
  | call hr' h ih =>
    exact repl h ih (by intro e he; cases List.mem_singleton.mp he; rfl) (fun l hl => ⟨l, hl, by simp [PC.partialLog]⟩) hp
  | step hr' st ih =>
    cases st with
    | body h hrd hc =>
      exact repl h ih (by intro e he; cases List.mem_singleton.mp he; rfl) (fun l hl => ⟨l, hl, by simp [PC.partialLog]⟩) hp
    | ret h =>
      rename_i op r pre post
      exact repl h ih (by intro e he; cases List.mem_singleton.mp he; rfl) (fun l hl => ⟨_, hl.round (op := op) (r := r), by simp [PC.partialLog]⟩) hp
    | fast h | slow h | onceLock h | again h | first h | initLock h | initBody h | initUnlock h | onceSet h | onceUnlock h | lock h | unlock h | crash h =>
      refine repl0 h ih ?_ hp; rfl

/-! ### No panic, no deadlock, no endless run -/

theorem setPtrs_sublist_nodup {a b c : List CacheOp} (h : a.Perm (b ++ c)) (hf : Fresh a) : Fresh b := by
  have h1 : (setPtrs a).Perm (setPtrs (b ++ c)) := h.filterMap _
  have h2 := h1.nodup_iff.mp hf
  rw [setPtrs, List.filterMap_append, List.nodup_append] at h2
  exact h2.1

/-- C52: no call panics, neither on the map of an uninitialised cache nor on an index, as long as every Set passes an entry of its own. -/
theorem C52_no_crash {s : LState} (hr : LReach H n s) (hf : Fresh (calls s.log)) (i : Nat) (op : CacheOp) : s.threads[i]? ≠ some (.crashed op) := by
  induction hr generalizing i op with
  | init =>
    intro h
    have := (List.mem_replicate.mp (List.mem_of_getElem? h)).2
    cases this
  | call hr' h ih =>
    intro hc
    have hc : (_ : List PC)[i]? = _ := hc
    rw [getElem?_repl h] at hc
    split at hc
    · cases hc
    · refine ih ?_ i op hc
      rw [calls_append] at hf
      exact setPtrs_sublist_nodup (List.Perm.refl _) hf
  | step hr' st ih =>
    cases st with
    | crash h hcr =>
      rename_i s op' pre post
      exfalso
      have hv := linv hr'
      have hd : s.done = true := hv.phase _ _ (getElem?_at h)
      have hrd := hv.ready hd
      rcases hcr with hcr | hcr
      · rw [hrd] at hcr; cases hcr
      · have hp : (calls s.log).Perm ((effects s.log ++ [op']) ++ (pre ++ PC.idle :: post).filterMap PC.pending) := by
          refine hv.perm.trans ?_
          rw [List.append_assoc]
          refine List.Perm.append_left _ ?_
          rw [h]; exact pending_take rfl rfl
        obtain ⟨st, h1, _⟩ := good_run H _ (setPtrs_sublist_nodup hp hf)
        rw [run_snoc, hv.run] at h1
        have h1 : s.cache.step H op' = some st := h1
        rw [hcr] at h1; cases h1
    | ret h =>
      intro hc
      have hc : (_ : List PC)[i]? = _ := hc
      rw [getElem?_repl h] at hc
      split at hc
      · cases hc
      · refine ih ?_ i op hc
        rw [calls_append] at hf
        exact setPtrs_sublist_nodup (List.Perm.refl _) hf
    | body h hrd hstep =>
      intro hc
      have hc : (_ : List PC)[i]? = _ := hc
      rw [getElem?_repl h] at hc
      split at hc
      · cases hc
      · refine ih ?_ i op hc
        rw [calls_append] at hf
        exact setPtrs_sublist_nodup (List.Perm.refl _) hf
    | fast h | slow h | onceLock h | again h | first h | initLock h | initBody h | initUnlock h | onceSet h | onceUnlock h | lock h | unlock h =>
      intro hc
      have hc : (_ : List PC)[i]? = _ := hc
      rw [getElem?_repl h] at hc
      split at hc
      · cases hc
      · exact ih hf i op hc

/-- C52: as long as some goroutine is inside a call, some goroutine can go on. -/
theorem C52_no_deadlock {s : LState} (hr : LReach H n s) {i : Nat} {p : PC} (hi : s.threads[i]? = some p) (hp : p ≠ .idle)
    (hc : ∀ op, p ≠ .crashed op) : ∃ s', LStep H s s' := by
  have hv := linv hr
  have bodyStep : ∀ {pre post op}, s.threads = pre ++ PC.body op :: post → ∃ s', LStep H s s' := by
    intro pre post op h
    cases hrd : s.ready with
    | false => exact ⟨_, .crash h (.inl hrd)⟩
    | true =>
      cases hs : s.cache.step H op with
      | none => exact ⟨_, .crash h (.inr hs)⟩
      | some c => exact ⟨_, .body h hrd hs⟩
  -- a goroutine that does not wait for a mutex
  cases hm : s.mux with
  | some j =>
    obtain ⟨q, h1, h2⟩ := hv.mux.held j hm
    obtain ⟨pre, post, h, _⟩ := split_at h1
    cases q with
    | initBody op => exact ⟨_, .initBody h⟩
    | initUnlock op => exact ⟨_, .initUnlock h⟩
    | body op => exact bodyStep h
    | unlock op r => exact ⟨_, .unlock h⟩
    | _ => cases h2
  | none =>
    cases ho : s.om with
    | some j =>
      obtain ⟨q, h1, h2⟩ := hv.om.held j ho
      obtain ⟨pre, post, h, _⟩ := split_at h1
      cases q with
      | onceIn op =>
        cases hd : s.done with
        | true => exact ⟨_, .again h hd⟩
        | false => exact ⟨_, .first h hd⟩
      | initLock op => exact ⟨_, .initLock h hm⟩
      | initBody op => exact ⟨_, .initBody h⟩
      | initUnlock op => exact ⟨_, .initUnlock h⟩
      | onceSet op => exact ⟨_, .onceSet h⟩
      | onceUnlock op => exact ⟨_, .onceUnlock h⟩
      | _ => cases h2
    | none =>
      obtain ⟨pre, post, h, _⟩ := split_at hi
      cases p with
      | idle => exact absurd rfl hp
      | crashed op => exact absurd rfl (hc op)
      | once op =>
        cases hd : s.done with
        | true => exact ⟨_, .fast h hd⟩
        | false => exact ⟨_, .slow h hd⟩
      | onceLock op => exact ⟨_, .onceLock h ho⟩
      | onceIn op =>
        cases hd : s.done with
        | true => exact ⟨_, .again h hd⟩
        | false => exact ⟨_, .first h hd⟩
      | initLock op => exact ⟨_, .initLock h hm⟩
      | initBody op => exact ⟨_, .initBody h⟩
      | initUnlock op => exact ⟨_, .initUnlock h⟩
      | onceSet op => exact ⟨_, .onceSet h⟩
      | onceUnlock op => exact ⟨_, .onceUnlock h⟩
      | lock op => exact ⟨_, .lock h hm⟩
      | body op => exact bodyStep h
      | unlock op r => exact ⟨_, .unlock h⟩
      | ret op r => exact ⟨_, .ret h⟩

/-- Steps left in a call, at most. -/
def PC.left : PC → Nat
  | .idle | .crashed _ => 0
  | .ret _ _ => 1 | .unlock _ _ => 2 | .body _ => 3 | .lock _ => 4 | .onceUnlock _ => 5 | .onceSet _ => 6 | .initUnlock _ => 7
  | .initBody _ => 8 | .initLock _ => 9 | .onceIn _ => 10 | .onceLock _ => 11 | .once _ => 12

def LState.left (s : LState) : Nat := (s.threads.map PC.left).sum

theorem step_left {s s' : LState} (st : LStep H s s') : s'.left < s.left := by
  have e : ∀ {pre post : List PC} {a b : PC}, s.threads = pre ++ a :: post → b.left < a.left → ((pre ++ b :: post).map PC.left).sum < s.left := by
    intro pre post a b h hab
    rw [LState.left, h]
    simp only [List.map_append, List.map_cons, List.sum_append, List.sum_cons]
    omega
  cases st with
  | fast h | slow h | onceLock h | again h | first h | initLock h | initBody h | initUnlock h | onceSet h | onceUnlock h | lock h | unlock h | crash h | body h | ret h =>
    exact e h (by simp only [PC.left]; omega)

/-- C52: a schedule cannot run on for ever inside the calls made so far: there are at most twelve steps per call. -/
theorem C52_terminates (f : Nat → LState) (m : Nat) (hf : ∀ k, k < m → LStep H (f k) (f (k + 1))) : m ≤ (f 0).left := by
  have : ∀ k, k ≤ m → (f k).left + k ≤ (f 0).left := by
    intro k
    induction k with
    | zero => intro _; omega
    | succ k ih =>
      intro hk
      have h1 := step_left (hf k (by omega))
      have h2 := ih (by omega)
      omega
  have := this m (Nat.le_refl _)
  omega

theorem left_le (s : LState) : s.left ≤ 12 * s.threads.length := by
  rw [LState.left]
  induction s.threads with
  | nil => rfl
  | cons a l ih =>
    have : a.left ≤ 12 := by cases a <;> simp [PC.left]
    simp only [List.map_cons, List.sum_cons, List.length_cons]
    omega

/-- C52: so all calls return: every maximal schedule inside the calls made so far ends with all goroutines outside. -/
theorem C52_all_return {s : LState} (hr : LReach H n s) (hf : Fresh (calls s.log)) (hend : ¬ ∃ s', LStep H s s') : ∀ p ∈ s.threads, p = .idle := by
  intro p hp
  obtain ⟨i, hi⟩ := List.getElem?_of_mem hp
  refine Classical.byContradiction fun hne => hend (C52_no_deadlock hr hi hne ?_)
  rintro op rfl
  exact C52_no_crash hr hf i op hi

/-- C52 with C09: what a concurrent Get returns, in terms of the operations that took effect before it. -/
theorem C52_get {s : LState} (hr : LReach H n s) (hf : Fresh (calls s.log)) {pre post : List LEvent} {t : Nat} {key : Bytes} {now : Int64} {r : Res}
    (h : s.log = pre ++ .eff t (.get key now) r :: post) (hnc : NoCollision H (effects pre) key) :
    match r with
    | some p => ∃ c e, CacheState.run H (effects pre) = some c ∧ lastSet (effects pre) key = some e ∧ SameResult ((c.get H key now).1.heap p) e
    | none => lastSet (effects pre) key = none ∨ CleanSince (effects pre) key := by
  obtain ⟨c, h1, h2⟩ := C52_results hr h
  have hfe : Fresh (effects pre) := by
    have h3 := setPtrs_sublist_nodup (linv hr).perm hf
    rw [h, effects_append] at h3
    exact setPtrs_sublist_nodup (List.Perm.refl _) h3
  obtain ⟨c', h3, h4⟩ := C09_get_returns_last_set H (effects pre) hfe
  rw [h1] at h3; cases h3
  have h4 := h4 key now hnc
  have h2 := h2 key now rfl
  revert h4
  cases hg : c.get H key now with
  | mk c2 q =>
    rw [hg] at h2
    cases q with
    | some p =>
      subst h2
      rintro ⟨e, a, b, _⟩
      exact ⟨c, e, h1, a, by rw [hg]; exact b⟩
    | none => subst h2; exact id

/-! ### A concrete race -/

def demoSet : CacheOp := .set (ascii "k1") 0 { clientType := 1 } 5
def demoGet : CacheOp := .get (ascii "k1") 7

/-- Two goroutines race to initialise the cache: both miss the flag, the second waits for the inner mutex and finds the flag set; then its Get
finds what the first stored. -/
theorem demo_race : ∃ s, LReach fnv1 2 s ∧ s.inits = 1 ∧ Fresh (calls s.log) ∧ (∀ p ∈ s.threads, p = .idle) ∧
    ∃ pre post, s.log = pre ++ .eff 1 demoGet (some 0) :: post ∧ effects pre = [demoSet] := by
  have r := LReach.init (H := fnv1) (n := 2)
  have r := LReach.call (op := demoSet) (pre := []) (post := [.idle]) r rfl
  have r := LReach.call (op := demoGet) (pre := [.once demoSet]) (post := []) r rfl
  have r := r.step (.slow (pre := []) (post := [.once demoGet]) rfl rfl)
  have r := r.step (.slow (pre := [.onceLock demoSet]) (post := []) rfl rfl)
  have r := r.step (.onceLock (pre := []) (post := [.onceLock demoGet]) rfl rfl)
  have r := r.step (.first (pre := []) (post := [.onceLock demoGet]) rfl rfl)
  have r := r.step (.initLock (pre := []) (post := [.onceLock demoGet]) rfl rfl)
  have r := r.step (.initBody (pre := []) (post := [.onceLock demoGet]) rfl)
  have r := r.step (.initUnlock (pre := []) (post := [.onceLock demoGet]) rfl)
  have r := r.step (.onceSet (pre := []) (post := [.onceLock demoGet]) rfl)
  have r := r.step (.onceUnlock (pre := []) (post := [.onceLock demoGet]) rfl)
  have r := r.step (.onceLock (pre := [.lock demoSet]) (post := []) rfl rfl)
  have r := r.step (.again (pre := [.lock demoSet]) (post := []) rfl rfl)
  have r := r.step (.lock (pre := []) (post := [.onceUnlock demoGet]) rfl rfl)
  have r := r.step (.body (pre := []) (post := [.onceUnlock demoGet]) rfl rfl rfl)
  have r := r.step (.onceUnlock (pre := [.unlock demoSet none]) (post := []) rfl)
  have r := r.step (.unlock (pre := []) (post := [.lock demoGet]) rfl)
  have r := r.step (.lock (pre := [.ret demoSet none]) (post := []) rfl rfl)
  have r := r.step (.body (pre := [.ret demoSet none]) (post := []) rfl rfl rfl)
  have r := r.step (.unlock (pre := [.ret demoSet none]) (post := []) rfl)
  have r := r.step (.ret (pre := []) (post := [_]) rfl)
  have r := r.step (.ret (pre := [.idle]) (post := []) rfl)
  refine ⟨_, r, rfl, by decide, ?_, [.call 0 demoSet, .call 1 demoGet, .eff 0 demoSet none], _, rfl, rfl⟩
  intro p hp
  rcases List.mem_cons.mp hp with h | h
  · exact h
  · exact List.mem_singleton.mp h

end Verif.Locking

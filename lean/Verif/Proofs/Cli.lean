import Verif.Model.Cli
/-
Invariant of the batch processing of the command line tool.
-/
namespace Verif.Cli
variable {lower : Bytes → Bytes} {rows : List Row} {threads : Nat}

/-- Rows a worker has taken and not counted yet. -/
def Worker.item : Worker → List Row
  | .work r | .lock r _ | .write r _ _ | .fin r _ => [r]
  | _ => []

/-- Rows being written or written, not counted yet. -/
def Worker.wr (lower : Bytes → Bytes) : Worker → List (Row × Got)
  | .write r g _ => [(r, g)]
  | .fin r g => if errs lower r g = [] then [] else [(r, g)]
  | _ => []

/-- Has errors to report. -/
def bad (lower : Bytes → Bytes) (x : Row × Got) : Bool := decide (errs lower x.1 x.2 ≠ [])

/-- Worker i holds the mutex. -/
def Worker.todo : Worker → List Bytes
  | .write _ _ t => t
  | _ => []

structure CInv (lower : Bytes → Bytes) (rows : List Row) (threads : Nat) (s : CState) : Prop where
  len : s.workers.length = threads
  le : s.sent ≤ rows.length
  cnt : ∀ r, rows.count r = (s.handled.map (·.1)).count r + (s.workers.flatMap Worker.item).count r + s.chan.count r + (rows.drop s.sent).count r
  cl : s.closed = true → s.sent = rows.length
  done : ∀ w ∈ s.workers, w = .done → s.closed = true ∧ s.chan = []
  count : s.count = s.handled.length
  mux : ∀ (i : Nat), s.fmux = some i → ∃ r g t, s.workers[i]? = some (.write r g t)
  hold : ∀ (i : Nat) r g t, s.workers[i]? = some (.write r g t) → s.fmux = some i
  lock : ∀ r g, .lock r g ∈ s.workers → errs lower r g ≠ []
  wrt : ∀ r g t, .write r g t ∈ s.workers → errs lower r g ≠ []
  written : ∀ x, s.written.count x = (s.handled.filter (bad lower)).count x + (s.workers.flatMap (Worker.wr lower)).count x
  out : s.out ++ s.workers.flatMap Worker.todo = s.written.flatMap fun x => block lower x.1 x.2

theorem getElem?_mid {α : Type} {pre post : List α} {a : α} : (pre ++ a :: post)[pre.length]? = some a := by simp

/-- Replacing one worker: where another state can be found. -/
theorem getElem?_repl {α : Type} {pre post : List α} {a b x : α} {i : Nat} (h : (pre ++ b :: post)[i]? = some x) :
    (i = pre.length ∧ x = b) ∨ (i ≠ pre.length ∧ (pre ++ a :: post)[i]? = some x) := by
  by_cases hi : i = pre.length
  · subst hi; rw [getElem?_mid] at h; exact .inl ⟨rfl, (Option.some.inj h).symm⟩
  · refine .inr ⟨hi, ?_⟩
    rcases Nat.lt_or_gt_of_ne hi with hl | hl
    · rw [List.getElem?_append_left hl] at h ⊢; exact h
    · rw [List.getElem?_append_right (by omega)] at h ⊢
      obtain ⟨k, hk⟩ : ∃ k, i - pre.length = k + 1 := ⟨i - pre.length - 1, by omega⟩
      rw [hk, List.getElem?_cons_succ] at h ⊢
      exact h

theorem todo_nil {s : CState} (I : CInv lower rows threads s) (h : s.fmux = none) : s.workers.flatMap Worker.todo = [] := by
  rw [List.flatMap_eq_nil_iff]
  intro w hw
  cases w with
  | write r g t =>
    obtain ⟨i, hi⟩ := List.getElem?_of_mem hw
    have := I.hold i r g t hi
    rw [h] at this
    cases this
  | _ => rfl

theorem cinv {s : CState} (hr : CReach lower rows threads s) : CInv lower rows threads s := by
  induction hr with
  | init =>
    have h1 : ∀ w ∈ List.replicate threads Worker.recv, w = .recv := fun w hw => List.eq_of_mem_replicate hw
    have fm : ∀ {β : Type} (f : Worker → List β), f .recv = [] → (List.replicate threads Worker.recv).flatMap f = [] := by
      intro β f hf
      rw [List.flatMap_eq_nil_iff]
      intro w hw
      rw [h1 w hw, hf]
    refine ⟨by simp [CState.start], by simp [CState.start], ?_, by simp [CState.start], ?_, rfl, by simp [CState.start], ?_, ?_, ?_, ?_, ?_⟩
    · intro r
      simp only [CState.start, fm Worker.item rfl]
      simp
    · intro w hw e
      rw [h1 w hw] at e
      cases e
    · intro i r g t h
      have := h1 _ (List.mem_of_getElem? h)
      cases this
    · intro r g h
      cases h1 _ h
    · intro r g t h
      cases h1 _ h
    · intro x
      simp only [CState.start, fm (Worker.wr lower) rfl]
      simp
    · simp only [CState.start, fm Worker.todo rfl]
      simp
  | @step s s' _ st I =>
    cases st with
    | @send r h hc hl =>
      obtain ⟨hlt, hget⟩ := List.getElem?_eq_some_iff.mp h
      refine ⟨I.len, ?_, ?_, by simp [hc], ?_, I.count, I.mux, I.hold, I.lock, I.wrt, I.written, I.out⟩
      · show s.sent + 1 ≤ _
        omega
      · intro r'
        have := I.cnt r'
        rw [List.drop_eq_getElem_cons hlt, hget, List.count_cons] at this
        simp only [List.count_append, List.count_cons, List.count_nil]
        omega
      · intro w hw e
        have := (I.done w hw e).1
        rw [hc] at this
        cases this
    | close h hc =>
      exact ⟨I.len, I.le, I.cnt, fun _ => h, fun w hw e => ⟨rfl, (I.done w hw e).2⟩, I.count, I.mux, I.hold, I.lock, I.wrt, I.written, I.out⟩
    | @recv r rest pre post hw hc =>
      have mem : ∀ w, w ∈ pre ++ Worker.work r :: post → w = .work r ∨ w ∈ s.workers := by
        intro w h
        rw [hw]
        simp only [List.mem_append, List.mem_cons] at h ⊢
        rcases h with h | h | h
        · exact .inr (.inl h)
        · exact .inl h
        · exact .inr (.inr (.inr h))
      refine ⟨by have := I.len; rw [hw] at this; simpa using this, I.le, ?_, I.cl, ?_, I.count, ?_, ?_, ?_, ?_, ?_, ?_⟩
      · intro r'
        have := I.cnt r'
        rw [hw, hc] at this
        simp only [List.flatMap_append, List.flatMap_cons, List.count_append, Worker.item, List.count_cons, List.count_nil] at this ⊢
        omega
      · intro w h e
        rcases mem w h with rfl | h
        · cases e
        · have := (I.done w h e).2
          rw [hc] at this
          cases this
      · intro i hi
        obtain ⟨r', g, t, h⟩ := I.mux i hi
        rw [hw] at h
        rcases getElem?_repl (a := Worker.work r) h with ⟨_, h⟩ | ⟨_, h⟩
        · cases h
        · exact ⟨r', g, t, h⟩
      · intro i r' g t h
        rcases getElem?_repl (a := Worker.recv) h with ⟨_, h⟩ | ⟨_, h⟩
        · cases h
        · exact I.hold i r' g t (by rw [hw]; exact h)
      · intro r' g h
        rcases mem _ h with h | h
        · cases h
        · exact I.lock r' g h
      · intro r' g t h
        rcases mem _ h with h | h
        · cases h
        · exact I.wrt r' g t h
      · intro x
        have := I.written x
        rw [hw] at this
        simp only [List.flatMap_append, List.flatMap_cons, List.count_append, Worker.wr, List.count_nil] at this ⊢
        omega
      · have := I.out
        rw [hw] at this
        simpa [Worker.todo] using this
    | @stop pre post hw hc hcl =>
      have mem : ∀ w, w ∈ pre ++ Worker.done :: post → w = .done ∨ w ∈ s.workers := by
        intro w h
        rw [hw]
        simp only [List.mem_append, List.mem_cons] at h ⊢
        rcases h with h | h | h
        · exact .inr (.inl h)
        · exact .inl h
        · exact .inr (.inr (.inr h))
      refine ⟨by have := I.len; rw [hw] at this; simpa using this, I.le, ?_, I.cl, fun w _ _ => ⟨hcl, hc⟩, I.count, ?_, ?_, ?_, ?_, ?_, ?_⟩
      · intro r'
        have := I.cnt r'
        rw [hw] at this
        simpa [Worker.item] using this
      · intro i hi
        obtain ⟨r', g, t, h⟩ := I.mux i hi
        rw [hw] at h
        rcases getElem?_repl (a := Worker.done) h with ⟨_, h⟩ | ⟨_, h⟩
        · cases h
        · exact ⟨r', g, t, h⟩
      · intro i r' g t h
        rcases getElem?_repl (a := Worker.recv) h with ⟨_, h⟩ | ⟨_, h⟩
        · cases h
        · exact I.hold i r' g t (by rw [hw]; exact h)
      · intro r' g h
        rcases mem _ h with h | h
        · cases h
        · exact I.lock r' g h
      · intro r' g t h
        rcases mem _ h with h | h
        · cases h
        · exact I.wrt r' g t h
      · intro x
        have := I.written x
        rw [hw] at this
        simpa [Worker.wr] using this
      · have := I.out
        rw [hw] at this
        simpa [Worker.todo] using this
    | @good r pre post g hw he =>
      have mem : ∀ w, w ∈ pre ++ Worker.fin r g :: post → w = .fin r g ∨ w ∈ s.workers := by
        intro w h
        rw [hw]
        simp only [List.mem_append, List.mem_cons] at h ⊢
        rcases h with h | h | h
        · exact .inr (.inl h)
        · exact .inl h
        · exact .inr (.inr (.inr h))
      refine ⟨by have := I.len; rw [hw] at this; simpa using this, I.le, ?_, I.cl, ?_, I.count, ?_, ?_, ?_, ?_, ?_, ?_⟩
      · intro r'
        have := I.cnt r'
        rw [hw] at this
        simpa [Worker.item] using this
      · intro w h e
        rcases mem w h with rfl | h
        · cases e
        · exact I.done w h e
      · intro i hi
        obtain ⟨r', g', t, h⟩ := I.mux i hi
        rw [hw] at h
        rcases getElem?_repl (a := Worker.fin r g) h with ⟨_, h⟩ | ⟨_, h⟩
        · cases h
        · exact ⟨r', g', t, h⟩
      · intro i r' g' t h
        rcases getElem?_repl (a := Worker.work r) h with ⟨_, h⟩ | ⟨_, h⟩
        · cases h
        · exact I.hold i r' g' t (by rw [hw]; exact h)
      · intro r' g' h
        rcases mem _ h with h | h
        · cases h
        · exact I.lock r' g' h
      · intro r' g' t h
        rcases mem _ h with h | h
        · cases h
        · exact I.wrt r' g' t h
      · intro x
        have := I.written x
        rw [hw] at this
        simpa [Worker.wr, he] using this
      · have := I.out
        rw [hw] at this
        simpa [Worker.todo] using this
    | @bad r pre post g hw he =>
      have mem : ∀ w, w ∈ pre ++ Worker.lock r g :: post → w = .lock r g ∨ w ∈ s.workers := by
        intro w h
        rw [hw]
        simp only [List.mem_append, List.mem_cons] at h ⊢
        rcases h with h | h | h
        · exact .inr (.inl h)
        · exact .inl h
        · exact .inr (.inr (.inr h))
      refine ⟨by have := I.len; rw [hw] at this; simpa using this, I.le, ?_, I.cl, ?_, I.count, ?_, ?_, ?_, ?_, ?_, ?_⟩
      · intro r'
        have := I.cnt r'
        rw [hw] at this
        simpa [Worker.item] using this
      · intro w h e
        rcases mem w h with rfl | h
        · cases e
        · exact I.done w h e
      · intro i hi
        obtain ⟨r', g', t, h⟩ := I.mux i hi
        rw [hw] at h
        rcases getElem?_repl (a := Worker.lock r g) h with ⟨_, h⟩ | ⟨_, h⟩
        · cases h
        · exact ⟨r', g', t, h⟩
      · intro i r' g' t h
        rcases getElem?_repl (a := Worker.work r) h with ⟨_, h⟩ | ⟨_, h⟩
        · cases h
        · exact I.hold i r' g' t (by rw [hw]; exact h)
      · intro r' g' h
        rcases mem _ h with h | h
        · cases h; exact he
        · exact I.lock r' g' h
      · intro r' g' t h
        rcases mem _ h with h | h
        · cases h
        · exact I.wrt r' g' t h
      · intro x
        have := I.written x
        rw [hw] at this
        simpa [Worker.wr] using this
      · have := I.out
        rw [hw] at this
        simpa [Worker.todo] using this
    | @lock r g pre post hw hm =>
      have he : errs lower r g ≠ [] := I.lock r g (by rw [hw]; simp)
      have mem : ∀ w, w ∈ pre ++ Worker.write r g (block lower r g) :: post → w = .write r g (block lower r g) ∨ w ∈ s.workers := by
        intro w h
        rw [hw]
        simp only [List.mem_append, List.mem_cons] at h ⊢
        rcases h with h | h | h
        · exact .inr (.inl h)
        · exact .inl h
        · exact .inr (.inr (.inr h))
      have tn := todo_nil I hm
      refine ⟨by have := I.len; rw [hw] at this; simpa using this, I.le, ?_, I.cl, ?_, I.count, ?_, ?_, ?_, ?_, ?_, ?_⟩
      · intro r'
        have := I.cnt r'
        rw [hw] at this
        simpa [Worker.item] using this
      · intro w h e
        rcases mem w h with rfl | h
        · cases e
        · exact I.done w h e
      · intro i hi
        cases hi
        exact ⟨r, g, _, getElem?_mid⟩
      · intro i r' g' t h
        rcases getElem?_repl (a := Worker.lock r g) h with ⟨hi, _⟩ | ⟨_, h⟩
        · rw [hi]
        · have := I.hold i r' g' t (by rw [hw]; exact h)
          rw [hm] at this
          cases this
      · intro r' g' h
        rcases mem _ h with h | h
        · cases h
        · exact I.lock r' g' h
      · intro r' g' t h
        rcases mem _ h with h | h
        · cases h; exact he
        · exact I.wrt r' g' t h
      · intro x
        have := I.written x
        rw [hw] at this
        simp only [List.flatMap_append, List.flatMap_cons, List.count_append, Worker.wr, List.count_cons, List.count_nil] at this ⊢
        omega
      · have h1 := I.out
        rw [tn, List.append_nil] at h1
        rw [hw] at tn
        simp only [List.flatMap_append, List.flatMap_cons, List.append_eq_nil_iff] at tn ⊢
        rw [tn.1, tn.2.2, ← h1]
        simp [Worker.todo]
    | @write r g x xs pre post hw =>
      have hm : s.fmux = some pre.length := I.hold _ r g (x :: xs) (by rw [hw]; exact getElem?_mid)
      have mem : ∀ w, w ∈ pre ++ Worker.write r g xs :: post → w = .write r g xs ∨ w ∈ s.workers := by
        intro w h
        rw [hw]
        simp only [List.mem_append, List.mem_cons] at h ⊢
        rcases h with h | h | h
        · exact .inr (.inl h)
        · exact .inl h
        · exact .inr (.inr (.inr h))
      refine ⟨by have := I.len; rw [hw] at this; simpa using this, I.le, ?_, I.cl, ?_, I.count, ?_, ?_, ?_, ?_, ?_, ?_⟩
      · intro r'
        have := I.cnt r'
        rw [hw] at this
        simpa [Worker.item] using this
      · intro w h e
        rcases mem w h with rfl | h
        · cases e
        · exact I.done w h e
      · intro i hi
        rw [show s.fmux = some i from hi] at hm
        cases hm
        exact ⟨r, g, _, getElem?_mid⟩
      · intro i r' g' t h
        rcases getElem?_repl (a := Worker.write r g (x :: xs)) h with ⟨hi, _⟩ | ⟨_, h⟩
        · rw [hi]; exact hm
        · exact I.hold i r' g' t (by rw [hw]; exact h)
      · intro r' g' h
        rcases mem _ h with h | h
        · cases h
        · exact I.lock r' g' h
      · intro r' g' t h
        rcases mem _ h with h | h
        · cases h; exact I.wrt r g (x :: xs) (by rw [hw]; simp)
        · exact I.wrt r' g' t h
      · intro y
        have := I.written y
        rw [hw] at this
        simpa [Worker.wr] using this
      · have hpre : pre.flatMap Worker.todo = [] := by
          rw [List.flatMap_eq_nil_iff]
          intro w hw'
          cases w with
          | write r' g' t =>
            obtain ⟨i, hi⟩ := List.getElem?_of_mem hw'
            have hlt := (List.getElem?_eq_some_iff.mp hi).1
            have := I.hold i r' g' t (by rw [hw, List.getElem?_append_left hlt]; exact hi)
            rw [hm] at this
            cases this
            omega
          | _ => rfl
        have h1 := I.out
        rw [hw] at h1
        rw [← h1]
        simp [Worker.todo, hpre]
    | @unlock r g pre post hw =>
      have hm : s.fmux = some pre.length := I.hold _ r g [] (by rw [hw]; exact getElem?_mid)
      have he : errs lower r g ≠ [] := I.wrt r g [] (by rw [hw]; simp)
      have mem : ∀ w, w ∈ pre ++ Worker.fin r g :: post → w = .fin r g ∨ w ∈ s.workers := by
        intro w h
        rw [hw]
        simp only [List.mem_append, List.mem_cons] at h ⊢
        rcases h with h | h | h
        · exact .inr (.inl h)
        · exact .inl h
        · exact .inr (.inr (.inr h))
      refine ⟨by have := I.len; rw [hw] at this; simpa using this, I.le, ?_, I.cl, ?_, I.count, (fun i h => by cases h), ?_, ?_, ?_, ?_, ?_⟩
      · intro r'
        have := I.cnt r'
        rw [hw] at this
        simpa [Worker.item] using this
      · intro w h e
        rcases mem w h with rfl | h
        · cases e
        · exact I.done w h e
      · intro i r' g' t h
        rcases getElem?_repl (a := Worker.write r g []) h with ⟨_, h⟩ | ⟨hi, h⟩
        · cases h
        · have := I.hold i r' g' t (by rw [hw]; exact h)
          rw [hm] at this
          cases this
          exact absurd rfl hi
      · intro r' g' h
        rcases mem _ h with h | h
        · cases h
        · exact I.lock r' g' h
      · intro r' g' t h
        rcases mem _ h with h | h
        · cases h
        · exact I.wrt r' g' t h
      · intro y
        have := I.written y
        rw [hw] at this
        simpa [Worker.wr, he] using this
      · have h1 := I.out
        rw [hw] at h1
        simpa [Worker.todo] using h1
    | @count r g pre post hw =>
      have mem : ∀ w, w ∈ pre ++ Worker.recv :: post → w = .recv ∨ w ∈ s.workers := by
        intro w h
        rw [hw]
        simp only [List.mem_append, List.mem_cons] at h ⊢
        rcases h with h | h | h
        · exact .inr (.inl h)
        · exact .inl h
        · exact .inr (.inr (.inr h))
      refine ⟨by have := I.len; rw [hw] at this; simpa using this, I.le, ?_, I.cl, ?_, by simp [I.count], ?_, ?_, ?_, ?_, ?_, ?_⟩
      · intro r'
        have := I.cnt r'
        rw [hw] at this
        simp only [List.flatMap_append, List.flatMap_cons, List.map_append, List.map_cons, List.map_nil, List.count_append, Worker.item, List.count_cons, List.count_nil] at this ⊢
        omega
      · intro w h e
        rcases mem w h with rfl | h
        · cases e
        · exact I.done w h e
      · intro i hi
        obtain ⟨r', g', t, h⟩ := I.mux i hi
        rw [hw] at h
        rcases getElem?_repl (a := Worker.recv) h with ⟨_, h⟩ | ⟨_, h⟩
        · cases h
        · exact ⟨r', g', t, h⟩
      · intro i r' g' t h
        rcases getElem?_repl (a := Worker.fin r g) h with ⟨_, h⟩ | ⟨_, h⟩
        · cases h
        · exact I.hold i r' g' t (by rw [hw]; exact h)
      · intro r' g' h
        rcases mem _ h with h | h
        · cases h
        · exact I.lock r' g' h
      · intro r' g' t h
        rcases mem _ h with h | h
        · cases h
        · exact I.wrt r' g' t h
      · intro x
        have := I.written x
        rw [hw] at this
        by_cases he : errs lower r g = []
        · have hb : bad lower (r, g) = false := by simp [bad, he]
          simpa [Worker.wr, he, hb, List.filter_cons] using this
        · have hb : bad lower (r, g) = true := by simp [bad, he]
          simp only [List.flatMap_append, List.flatMap_cons, List.count_append, Worker.wr, he, if_false, List.count_cons, List.count_nil,
            List.filter_append, List.filter_cons, hb, if_true, List.filter_nil] at this ⊢
          omega
      · have h1 := I.out
        rw [hw] at h1
        simpa [Worker.todo] using h1

/-- Without workers nothing is sent. -/
theorem no_workers {s : CState} (hr : CReach lower rows 0 s) : s.sent = 0 ∧ s.chan = [] ∧ s.handled = [] := by
  induction hr with
  | init => exact ⟨rfl, rfl, rfl⟩
  | @step s s' hr st ih =>
    have hw : s.workers = [] := List.eq_nil_of_length_eq_zero (cinv hr).len
    cases st with
    | send _ _ hl => exact absurd hl (by simp)
    | close => exact ih
    | recv h | stop h | good _ h | bad _ h | lock h | write h | unlock h | count h =>
      rw [hw] at h
      exact absurd h.symm (by simp)

/-! ### Termination measure -/

def Worker.weight : Worker → Nat
  | .recv => 1
  | .work _ => 7
  | .lock _ _ => 6
  | .write _ _ _ => 5
  | .fin _ _ => 4
  | .done => 0

/-- Decreases with every step but a write. -/
def CState.weight (rows : List Row) (s : CState) : Nat :=
  9 * (rows.length - s.sent) + 7 * s.chan.length + (s.workers.map Worker.weight).sum + (if s.closed then 0 else 1)

/-- Strings still to be written. -/
def CState.todo (s : CState) : Nat := (s.workers.map fun w => w.todo.length).sum

theorem weight_step {s s' : CState} (st : CStep lower rows threads s s') :
    s'.weight rows < s.weight rows ∨ (s'.weight rows = s.weight rows ∧ s'.todo < s.todo) := by
  cases st with
  | @send r h hc hl =>
    left
    have := (List.getElem?_eq_some_iff.mp h).1
    simp only [CState.weight, List.length_append, List.length_cons, List.length_nil]
    omega
  | close h hc => left; simp [CState.weight, hc]
  | recv hw hc => left; simp [CState.weight, hw, hc, Worker.weight]; omega
  | stop hw hc hcl => left; simp [CState.weight, hw, hc, hcl, Worker.weight]
  | good g hw he => left; simp [CState.weight, hw, Worker.weight]
  | bad g hw he => left; simp [CState.weight, hw, Worker.weight]
  | lock hw hm => left; simp [CState.weight, hw, Worker.weight]
  | write hw => right; simp [CState.weight, CState.todo, hw, Worker.weight, Worker.todo]
  | unlock hw => left; simp [CState.weight, hw, Worker.weight]
  | count hw => left; simp [CState.weight, hw, Worker.weight]

end Verif.Cli

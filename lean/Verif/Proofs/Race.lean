import Verif.Model.Race
/-
The library has no data races: an invariant that says, for every location, who knows about the accesses made so far.
-/
namespace Verif.Race

/-! ### Traces -/

theorem get_mono {τ : Trace} {i : Nat} {a x} (h : τ[i]? = some a) : (τ ++ [x])[i]? = some a := by
  have hl : i < τ.length := by
    rcases Nat.lt_or_ge i τ.length with h' | h'
    · exact h'
    · rw [List.getElem?_eq_none h'] at h; cases h
  rw [List.getElem?_append_left hl]; exact h

theorem get_last (τ : Trace) (x) : (τ ++ [x])[τ.length]? = some x := by simp

theorem get_lt {τ : Trace} {i : Nat} {a} (h : τ[i]? = some a) : i < τ.length := by
  rcases Nat.lt_or_ge i τ.length with h' | h'
  · exact h'
  · rw [List.getElem?_eq_none h'] at h; cases h

theorem get_cases {τ : Trace} {i : Nat} {a x} (h : (τ ++ [x])[i]? = some a) : τ[i]? = some a ∨ (i = τ.length ∧ x = a) := by
  have hl := get_lt h
  rw [List.length_append, List.length_singleton] at hl
  rcases Nat.lt_or_ge i τ.length with h' | h'
  · rw [List.getElem?_append_left h'] at h; exact .inl h
  · have e : i = τ.length := by omega
    subst e; rw [get_last] at h; exact .inr ⟨rfl, by injection h⟩

theorem HB.lt {τ i j} (h : HB τ i j) : i < j := by
  induction h with
  | trans _ _ a b => omega
  | _ => assumption

theorem HB.mono {τ : Trace} {i j x} (h : HB τ i j) : HB (τ ++ [x]) i j := by
  induction h with
  | seq h hi hj => exact .seq h (get_mono hi) (get_mono hj)
  | mutex h hi hj => exact .mutex h (get_mono hi) (get_mono hj)
  | atomic h hi hj => exact .atomic h (get_mono hi) (get_mono hj)
  | pool h hi hj hb =>
    refine .pool h (get_mono hi) (get_mono hj) fun m v h1 h2 h3 => ?_
    rcases get_cases h3 with h4 | ⟨rfl, _⟩
    · exact hb m v h1 h2 h4
    · have := get_lt hj; omega
  | go h hi hj => exact .go h (get_mono hi) (get_mono hj)
  | trans _ _ a b => exact .trans a b

/-- The event `i` is ordered before what goroutine `t` does next. -/
def Seen (τ : Trace) (t i : Nat) : Prop :=
  ∃ j, ((∃ x, τ[j]? = some (t, x)) ∨ ∃ u, τ[j]? = some (u, .go t)) ∧ (i = j ∨ HB τ i j)

/-- The event `i` is ordered before the next locking of `k`. -/
def SeenM (τ : Trace) (k i : Nat) : Prop := ∃ j, (∃ u, τ[j]? = some (u, .unlock k)) ∧ (i = j ∨ HB τ i j)

/-- The event `i` is ordered before the loads of `b`. -/
def SeenB (τ : Trace) (b i : Nat) : Prop := ∃ j, (∃ u, τ[j]? = some (u, .store b)) ∧ (i = j ∨ HB τ i j)

/-- The event `i` is ordered before the next Get of `c`. -/
def SeenP (τ : Trace) (c i : Nat) : Prop :=
  ∃ j, (∃ u, τ[j]? = some (u, .put c)) ∧ (∀ m v, j < m → τ[m]? ≠ some (v, .get c)) ∧ (i = j ∨ HB τ i j)

theorem or_mono {τ : Trace} {i j x} (h : i = j ∨ HB τ i j) : i = j ∨ HB (τ ++ [x]) i j := h.imp id HB.mono

theorem Seen.mono {τ t i x} (h : Seen τ t i) : Seen (τ ++ [x]) t i := by
  obtain ⟨j, h1, h2⟩ := h
  exact ⟨j, h1.imp (fun ⟨x, h⟩ => ⟨x, get_mono h⟩) (fun ⟨x, h⟩ => ⟨x, get_mono h⟩), or_mono h2⟩

theorem SeenM.mono {τ t i x} (h : SeenM τ t i) : SeenM (τ ++ [x]) t i := by
  obtain ⟨j, ⟨u, h1⟩, h2⟩ := h
  exact ⟨j, ⟨u, get_mono h1⟩, or_mono h2⟩

theorem SeenB.mono {τ t i x} (h : SeenB τ t i) : SeenB (τ ++ [x]) t i := by
  obtain ⟨j, ⟨u, h1⟩, h2⟩ := h
  exact ⟨j, ⟨u, get_mono h1⟩, or_mono h2⟩

theorem SeenP.mono {τ c i t x} (h : SeenP τ c i) (hx : x ≠ Ev.get c) : SeenP (τ ++ [(t, x)]) c i := by
  obtain ⟨j, ⟨u, h1⟩, h3, h2⟩ := h
  refine ⟨j, ⟨u, get_mono h1⟩, fun m v hm hg => ?_, or_mono h2⟩
  rcases get_cases hg with h4 | ⟨_, h4⟩
  · exact h3 m v hm h4
  · injection h4 with _ h4; exact hx h4

theorem Seen.next {τ t i} (h : Seen τ t i) (x) : HB (τ ++ [(t, x)]) i τ.length := by
  obtain ⟨j, h1, h2⟩ := h
  have h3 : HB (τ ++ [(t, x)]) j τ.length := by
    rcases h1 with ⟨y, h⟩ | ⟨u, h⟩
    · exact .seq (get_lt h) (get_mono h) (get_last _ _)
    · exact .go (get_lt h) (get_mono h) (get_last _ _)
  rcases h2 with rfl | h2
  · exact h3
  · exact .trans h2.mono h3

theorem Seen.self (τ : Trace) (t x) : Seen (τ ++ [(t, x)]) t τ.length := ⟨_, .inl ⟨x, get_last _ _⟩, .inl rfl⟩

theorem Seen.of_hb {τ : Trace} {t x i} (h : HB (τ ++ [(t, x)]) i τ.length) : Seen (τ ++ [(t, x)]) t i := ⟨_, .inl ⟨x, get_last _ _⟩, .inr h⟩

/-- Unlocking passes on what the goroutine has seen. -/
theorem Seen.unlock {τ t i k} (h : Seen τ t i) : SeenM (τ ++ [(t, .unlock k)]) k i := ⟨_, ⟨t, get_last _ _⟩, .inr (h.next _)⟩

theorem Seen.store {τ t i b} (h : Seen τ t i) : SeenB (τ ++ [(t, .store b)]) b i := ⟨_, ⟨t, get_last _ _⟩, .inr (h.next _)⟩

theorem Seen.put {τ t i c} (h : Seen τ t i) : SeenP (τ ++ [(t, .put c)]) c i := by
  refine ⟨_, ⟨t, get_last _ _⟩, fun m v hm hg => ?_, .inr (h.next _)⟩
  have := get_lt hg
  rw [List.length_append, List.length_singleton] at this
  omega

theorem Seen.go {τ t i u} (h : Seen τ t i) : Seen (τ ++ [(t, .go u)]) u i := ⟨_, .inr ⟨t, get_last _ _⟩, .inr (h.next _)⟩

theorem SeenM.lock {τ t i k} (h : SeenM τ k i) : Seen (τ ++ [(t, .lock k)]) t i := by
  obtain ⟨j, ⟨u, h1⟩, h2⟩ := h
  have h3 : HB (τ ++ [(t, .lock k)]) j τ.length := .mutex (get_lt h1) (get_mono h1) (get_last _ _)
  refine .of_hb ?_
  rcases h2 with rfl | h2
  · exact h3
  · exact .trans h2.mono h3

theorem SeenB.load {τ t i b} (h : SeenB τ b i) : Seen (τ ++ [(t, .load b)]) t i := by
  obtain ⟨j, ⟨u, h1⟩, h2⟩ := h
  have h3 : HB (τ ++ [(t, .load b)]) j τ.length := .atomic (get_lt h1) (get_mono h1) (get_last _ _)
  refine .of_hb ?_
  rcases h2 with rfl | h2
  · exact h3
  · exact .trans h2.mono h3

theorem SeenP.get {τ t i c} (h : SeenP τ c i) : Seen (τ ++ [(t, .get c)]) t i := by
  obtain ⟨j, ⟨u, h1⟩, h4, h2⟩ := h
  have h3 : HB (τ ++ [(t, .get c)]) j τ.length := by
    refine .pool (get_lt h1) (get_mono h1) (get_last _ _) fun m v hm hl hg => ?_
    rcases get_cases hg with h5 | ⟨h5, _⟩
    · exact h4 m v hm h5
    · omega
  refine .of_hb ?_
  rcases h2 with rfl | h2
  · exact h3
  · exact .trans h2.mono h3

/-! ### Who knows about a location -/

inductive Guard where
  | none
  /-- one goroutine -/
  | excl (t : Nat)
  /-- whoever holds the lock -/
  | mutex (k : Nat)
  /-- whoever gets it from the pool -/
  | pool (c : Nat)
  /-- written no more; the writes are known to whoever holds the lock -/
  | frozenM (k : Nat)
  /-- written no more; the writes are known to whoever loads the box -/
  | frozenB (b : Nat)
  /-- written no more; the writes are known to all -/
  | frozen

def Own.guard (f : Nat → Guard) : Own → Guard
  | .free => .none
  | .mine t => .excl t
  | .shared k => f k

def State.guard (s : State) : Loc → Guard
  | .ctx c => (s.ctx c).guard fun _ => .pool c
  | .box b => (s.box b).guard fun _ => .frozenB b
  | .table k => .mutex k
  | .hkey e => (s.entry e).guard .mutex
  | .stamp e => (s.entry e).guard .mutex
  | .result e => (s.entry e).guard .frozenM
  | .rules => .frozen

/-- Known to the holder of the lock, or to the next. -/
def State.KnowsM (s : State) (k i : Nat) : Prop :=
  match s.holder k with
  | some t => Seen s.trace t i
  | none => SeenM s.trace k i

/-- The guard knows the access `i`. -/
def State.Knows (s : State) (w : Bool) (i : Nat) : Guard → Prop
  | .none => False
  | .excl t => Seen s.trace t i
  | .mutex k => s.KnowsM k i
  | .pool c => SeenP s.trace c i
  | .frozenM k => w = true → s.KnowsM k i
  | .frozenB b => w = true → SeenB s.trace b i
  | .frozen => w = true → ∀ t, s.todo t ≠ none → Seen s.trace t i

/-! ### What a goroutine may do next -/

structure View where
  held : Option Nat
  ctx : Nat → Prop
  mine : Nat → Prop
  pub : Nat → Nat → Prop
  res : Nat → Prop
  box : Nat → Prop
  boxr : Nat → Prop
  init : Prop

def View.May (V : View) (w : Bool) : Loc → Prop
  | .ctx c => V.ctx c
  | .table k => V.held = some k
  | .hkey e => V.mine e ∨ ∃ k, V.pub e k ∧ V.held = some k
  | .stamp e => V.mine e ∨ ∃ k, V.pub e k ∧ V.held = some k
  | .result e => V.mine e ∨ (w = false ∧ V.res e)
  | .box b => V.box b ∨ (w = false ∧ V.boxr b)
  | .rules => V.init ∨ w = false

def View.empty : View := ⟨none, fun _ => False, fun _ => False, fun _ _ => False, fun _ => False, fun _ => False, fun _ => False, False⟩

/-- The rest of the work keeps to the rules. -/
def WF : View → List Instr → Prop
  | V, [] => V.held = none
  | V, .acc w l :: r => V.May w l ∧ WF V r
  | V, .lock k :: r => V.held = none ∧ WF { V with held := some k } r
  | V, .unlock k :: r => V.held = some k ∧ WF { V with held := none } r
  | V, .once _ :: r => V.held = none ∧ WF { V with init := False } r
  | V, .onceDone _ :: r => V.held = none ∧ WF V r
  | V, .find c :: r => V.held = none ∧ V.ctx c ∧ WF { V with init := False } r
  | V, .look k c :: r => V.held = some k ∧ V.ctx c ∧ WF { V with held := none, init := False } r
  | V, .save c :: r => V.held = none ∧ V.ctx c ∧ WF { V with init := False } r
  | V, .set e c :: r => V.held = none ∧ V.mine e ∧ V.ctx c ∧ WF { V with mine := fun e' => e' ≠ e ∧ V.mine e', init := False } r
  | V, .place k e :: r => V.held = some k ∧ V.mine e ∧
      WF { V with mine := fun e' => e' ≠ e ∧ V.mine e', pub := fun e' k' => (e' = e ∧ k' = k) ∨ V.pub e' k' } r
  | V, .clean _ :: r => V.held = none ∧ WF { V with init := False } r
  | V, .sweep k :: r => V.held = some k ∧ WF V r
  | V, .shrink k keep :: r => V.held = some k ∧ (∀ e ∈ keep, V.pub e k) ∧ WF V r
  | V, .store b _ :: r => V.box b ∧ WF { V with box := fun b' => b' ≠ b ∧ V.box b', init := False } r
  | V, .put c :: r => V.ctx c ∧ WF { V with ctx := fun c' => c' ≠ c ∧ V.ctx c' } r
  | V, .goClean _ :: r => WF { V with init := False } r
  | _, .userFind :: _ => False
  | _, .userLook _ :: _ => False

structure View.Le (V V' : View) : Prop where
  held : V.held = V'.held
  ctx : ∀ c, V.ctx c → V'.ctx c
  mine : ∀ e, V.mine e → V'.mine e
  pub : ∀ e k, V.pub e k → V'.pub e k
  res : ∀ e, V.res e → V'.res e
  box : ∀ b, V.box b → V'.box b
  boxr : ∀ b, V.boxr b → V'.boxr b
  init : V.init → V'.init

theorem View.May.le {V V' : View} (h : V.Le V') {w l} (m : V.May w l) : V'.May w l := by
  cases l <;> simp only [View.May] at m ⊢
  · exact h.ctx _ m
  · exact m.imp (h.box _) (fun a => ⟨a.1, h.boxr _ a.2⟩)
  · rw [← h.held]; exact m
  · exact m.imp (h.mine _) (fun ⟨k, a⟩ => ⟨k, h.pub _ _ a.1, h.held ▸ a.2⟩)
  · exact m.imp (h.mine _) (fun ⟨k, a⟩ => ⟨k, h.pub _ _ a.1, h.held ▸ a.2⟩)
  · exact m.imp (h.mine _) (fun a => ⟨a.1, h.res _ a.2⟩)
  · exact m.imp h.init id

theorem WF.le {r : List Instr} : ∀ {V V' : View}, V.Le V' → WF V r → WF V' r := by
  induction r with
  | nil => intro V V' h w; simp only [WF] at w ⊢; exact h.held ▸ w
  | cons i r ih =>
    intro V V' h w
    cases i <;> simp only [WF] at w ⊢
    case acc => exact ⟨w.1.le h, ih h w.2⟩
    case lock => exact ⟨h.held ▸ w.1, by refine ih ?_ w.2; exact ⟨rfl, h.ctx, h.mine, h.pub, h.res, h.box, h.boxr, h.init⟩⟩
    case unlock => exact ⟨h.held ▸ w.1, by refine ih ?_ w.2; exact ⟨rfl, h.ctx, h.mine, h.pub, h.res, h.box, h.boxr, h.init⟩⟩
    case once => exact ⟨h.held ▸ w.1, by refine ih ?_ w.2; exact ⟨h.held, h.ctx, h.mine, h.pub, h.res, h.box, h.boxr, id⟩⟩
    case onceDone => exact ⟨h.held ▸ w.1, ih h w.2⟩
    case find => exact ⟨h.held ▸ w.1, h.ctx _ w.2.1, by refine ih ?_ w.2.2; exact ⟨h.held, h.ctx, h.mine, h.pub, h.res, h.box, h.boxr, id⟩⟩
    case look => exact ⟨h.held ▸ w.1, h.ctx _ w.2.1, by refine ih ?_ w.2.2; exact ⟨rfl, h.ctx, h.mine, h.pub, h.res, h.box, h.boxr, id⟩⟩
    case save => exact ⟨h.held ▸ w.1, h.ctx _ w.2.1, by refine ih ?_ w.2.2; exact ⟨h.held, h.ctx, h.mine, h.pub, h.res, h.box, h.boxr, id⟩⟩
    case set =>
      exact ⟨h.held ▸ w.1, h.mine _ w.2.1, h.ctx _ w.2.2.1,
        by refine ih ?_ w.2.2.2; exact ⟨h.held, h.ctx, fun e a => ⟨a.1, h.mine _ a.2⟩, h.pub, h.res, h.box, h.boxr, id⟩⟩
    case place =>
      exact ⟨h.held ▸ w.1, h.mine _ w.2.1,
        by refine ih ?_ w.2.2; exact ⟨h.held, h.ctx, fun e a => ⟨a.1, h.mine _ a.2⟩, fun e k a => a.imp id (h.pub e k), h.res, h.box, h.boxr, h.init⟩⟩
    case clean => exact ⟨h.held ▸ w.1, by refine ih ?_ w.2; exact ⟨h.held, h.ctx, h.mine, h.pub, h.res, h.box, h.boxr, id⟩⟩
    case sweep => exact ⟨h.held ▸ w.1, ih h w.2⟩
    case shrink => exact ⟨h.held ▸ w.1, fun e he => h.pub _ _ (w.2.1 e he), ih h w.2.2⟩
    case store =>
      exact ⟨h.box _ w.1, by refine ih ?_ w.2; exact ⟨h.held, h.ctx, h.mine, h.pub, h.res, fun b a => ⟨a.1, h.box _ a.2⟩, h.boxr, id⟩⟩
    case put => exact ⟨h.ctx _ w.1, by refine ih ?_ w.2; exact ⟨h.held, fun c a => ⟨a.1, h.ctx _ a.2⟩, h.mine, h.pub, h.res, h.box, h.boxr, h.init⟩⟩
    case goClean => refine ih ?_ w; exact ⟨h.held, h.ctx, h.mine, h.pub, h.res, h.box, h.boxr, id⟩

/-! ### The invariant -/

/-- The state of the world is as the goroutine believes. -/
structure Agree (s : State) (t : Nat) (V : View) : Prop where
  held : ∀ k, s.holder k = some t ↔ V.held = some k
  ctx : ∀ c, V.ctx c → s.ctx c = .mine t
  mine : ∀ e, V.mine e → s.entry e = .mine t
  pub : ∀ e k, V.pub e k → s.entry e = .shared k
  res : ∀ e, V.res e → (∃ k, s.entry e = .shared k) ∧ ∀ i u, s.trace[i]? = some (u, .acc true (.result e)) → Seen s.trace t i
  box : ∀ b, V.box b → s.box b = .mine t
  boxr : ∀ b, V.boxr b → (∃ k, s.box b = .shared k) ∧ ∀ i u, s.trace[i]? = some (u, .acc true (.box b)) → Seen s.trace t i
  init : V.init → (∀ u, u ≠ t → s.todo u = none) ∧ ∀ (i u : Nat) (x : Ev), s.trace[i]? = some (u, x) → u = t

structure Base (s : State) : Prop where
  know : ∀ i u w l, s.trace[i]? = some (u, .acc w l) → s.Knows w i (s.guard l)
  norace : ∀ i j t u w w' l, i < j → s.trace[i]? = some (t, .acc w l) → s.trace[j]? = some (u, .acc w' l) → t ≠ u → (w = true ∨ w' = true) → HB s.trace i j
  buf : ∀ k e, e ∈ s.buf k → s.entry e = .shared k
  cur : ∀ b k, s.cur = some (b, k) → ∃ k, s.box b = .shared k
  fresh : ∀ t, s.todo t = none → ∀ k, s.holder k ≠ some t

def Inv (s : State) : Prop := Base s ∧ ∀ t r, s.todo t = some r → ∃ V, Agree s t V ∧ WF V r

theorem Base.silent {s s' : State} (B : Base s) (ht : s'.trace = s.trace)
    (hold : ∀ i w l, s.Knows w i (s.guard l) → s'.Knows w i (s'.guard l))
    (buf : ∀ k e, e ∈ s'.buf k → s'.entry e = .shared k) (cur : ∀ b k, s'.cur = some (b, k) → ∃ k, s'.box b = .shared k)
    (fresh : ∀ t, s'.todo t = none → ∀ k, s'.holder k ≠ some t) : Base s' where
  know i u w l h := by rw [ht] at h; exact hold i w l (B.know i u w l h)
  norace := by rw [ht]; exact B.norace
  buf := buf
  cur := cur
  fresh := fresh

theorem Base.event {s s' : State} {t x} (B : Base s) (ht : s'.trace = s.trace ++ [(t, x)])
    (hold : ∀ i w l, s.Knows w i (s.guard l) → s'.Knows w i (s'.guard l))
    (hnew : ∀ w l, x = .acc w l → (∀ i u w', s.trace[i]? = some (u, .acc w' l) → u ≠ t → (w' = true ∨ w = true) → Seen s.trace t i) ∧
      s'.Knows w s.trace.length (s'.guard l))
    (buf : ∀ k e, e ∈ s'.buf k → s'.entry e = .shared k) (cur : ∀ b k, s'.cur = some (b, k) → ∃ k, s'.box b = .shared k)
    (fresh : ∀ t, s'.todo t = none → ∀ k, s'.holder k ≠ some t) : Base s' where
  know i u w l h := by
    rw [ht] at h
    rcases get_cases h with h | ⟨rfl, h'⟩
    · exact hold i w l (B.know i u w l h)
    · exact (hnew w l (Prod.mk.inj h').2).2
  norace i j a u w w' l hij hi hj hne hw := by
    rw [ht] at hi hj ⊢
    rcases get_cases hj with hj | ⟨rfl, hj'⟩
    · have hi' : s.trace[i]? = some (a, .acc w l) := by
        rcases get_cases hi with h | ⟨rfl, _⟩
        · exact h
        · have := get_lt hj; omega
      exact (B.norace i j a u w w' l hij hi' hj hne hw).mono
    · obtain ⟨h1, h2⟩ := Prod.mk.inj hj'
      subst h1
      rcases get_cases hi with hi | ⟨rfl, _⟩
      · exact ((hnew w' l h2).1 i a w hi hne hw).next _
      · omega
  buf := buf
  cur := cur
  fresh := fresh

/-- What a goroutine may access has only accesses it has seen. -/
theorem Base.may {s : State} {t V} (B : Base s) (A : Agree s t V) (live : s.todo t ≠ none) {w l} (m : V.May w l) {i u w'}
    (h : s.trace[i]? = some (u, .acc w' l)) (hw : w' = true ∨ w = true) : Seen s.trace t i := by
  have K := B.know i u w' l h
  cases l <;> simp only [View.May] at m <;> simp only [State.guard] at K
  · rw [A.ctx _ m] at K; exact K
  · rcases m with m | ⟨rfl, m⟩
    · rw [A.box _ m] at K; exact K
    · rcases hw with rfl | hw
      · exact (A.boxr _ m).2 i u h
      · cases hw
  · simp only [State.Knows, State.KnowsM, (A.held _).2 m] at K; exact K
  · rcases m with m | ⟨k, m, hk⟩
    · rw [A.mine _ m] at K; exact K
    · rw [A.pub _ _ m] at K; simp only [Own.guard, State.Knows, State.KnowsM, (A.held _).2 hk] at K; exact K
  · rcases m with m | ⟨k, m, hk⟩
    · rw [A.mine _ m] at K; exact K
    · rw [A.pub _ _ m] at K; simp only [Own.guard, State.Knows, State.KnowsM, (A.held _).2 hk] at K; exact K
  · rcases m with m | ⟨rfl, m⟩
    · rw [A.mine _ m] at K; exact K
    · rcases hw with rfl | hw
      · exact (A.res _ m).2 i u h
      · cases hw
  · rcases m with m | rfl
    · have := (A.init m).2 i u _ h; subst this; exact ⟨i, .inl ⟨_, h⟩, .inl rfl⟩
    · rcases hw with rfl | hw
      · exact K rfl t live
      · cases hw

theorem KnowsM.mono {s s' : State} {k i t x} (ht : s'.trace = s.trace ++ [(t, x)]) (hh : s'.holder k = s.holder k) (K : s.KnowsM k i) : s'.KnowsM k i := by
  unfold State.KnowsM at *
  rw [hh, ht]
  cases h : s.holder k <;> rw [h] at K
  · exact SeenM.mono K
  · exact Seen.mono K

/-- An event that changes nothing else. -/
theorem Knows.mono {s s' : State} {w i g t x} (ht : s'.trace = s.trace ++ [(t, x)]) (hh : ∀ k, s'.holder k = s.holder k)
    (hx : ∀ c, x ≠ .get c) (hl : ∀ u, s'.todo u ≠ none → s.todo u ≠ none) (K : s.Knows w i g) : s'.Knows w i g := by
  cases g <;> simp only [State.Knows] at K ⊢
  · rw [ht]; exact K.mono
  · exact KnowsM.mono ht (hh _) K
  · rw [ht]; exact K.mono (hx _)
  · exact fun e => KnowsM.mono ht (hh _) (K e)
  · rw [ht]; exact fun e => (K e).mono
  · rw [ht]; exact fun e u hu => (K e u (hl u hu)).mono

theorem Agree.keep {s s' : State} {t V} (A : Agree s t V)
    (ht : s'.trace = s.trace ∨ ∃ v x, s'.trace = s.trace ++ [(v, x)] ∧ (∀ e, x = .acc true (.result e) → ∀ k, s.entry e ≠ .shared k) ∧
      (∀ b, x = .acc true (.box b) → ∀ k, s.box b ≠ .shared k) ∧ (V.init → v = t))
    (hh : ∀ k, s'.holder k = some t ↔ s.holder k = some t) (hc : ∀ c, s.ctx c = .mine t → s'.ctx c = .mine t)
    (he : ∀ e, s.entry e = .mine t → s'.entry e = .mine t) (he' : ∀ e k, s.entry e = .shared k → s'.entry e = .shared k)
    (hb : ∀ e, s.box e = .mine t → s'.box e = .mine t) (hb' : ∀ e k, s.box e = .shared k → ∃ k, s'.box e = .shared k)
    (hi : V.init → ∀ u, u ≠ t → s'.todo u = none) : Agree s' t V where
  held k := (hh k).trans (A.held k)
  ctx c h := hc _ (A.ctx c h)
  mine e h := he _ (A.mine e h)
  pub e k h := he' _ _ (A.pub e k h)
  res e h := by
    obtain ⟨⟨k, a⟩, b⟩ := A.res e h
    refine ⟨⟨k, he' _ _ a⟩, fun i u hg => ?_⟩
    rcases ht with ht | ⟨v, x, ht, h1, h2, h3⟩
    · rw [ht] at hg ⊢; exact b i u hg
    · rw [ht] at hg ⊢
      rcases get_cases hg with hg | ⟨_, hg⟩
      · exact (b i u hg).mono
      · replace hg := (Prod.mk.inj hg).2; exact absurd a (h1 e hg k)
  box e h := hb _ (A.box e h)
  boxr e h := by
    obtain ⟨⟨k, a⟩, b⟩ := A.boxr e h
    refine ⟨hb' _ _ a, fun i u hg => ?_⟩
    rcases ht with ht | ⟨v, x, ht, h1, h2, h3⟩
    · rw [ht] at hg ⊢; exact b i u hg
    · rw [ht] at hg ⊢
      rcases get_cases hg with hg | ⟨_, hg⟩
      · exact (b i u hg).mono
      · replace hg := (Prod.mk.inj hg).2; exact absurd a (h2 e hg k)
  init h := by
    refine ⟨hi h, fun i u x hg => ?_⟩
    rcases ht with ht | ⟨v, y, ht, h1, h2, h3⟩
    · rw [ht] at hg; exact (A.init h).2 i u x hg
    · rw [ht] at hg
      rcases get_cases hg with hg | ⟨_, hg⟩
      · exact (A.init h).2 i u x hg
      · rw [← (Prod.mk.inj hg).1]; exact h3 h

end Verif.Race

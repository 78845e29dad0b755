import Verif.Model.Batch
import Verif.Proofs.Cli
import Verif.Props.Sole
/-
The command line tool together with the library: invariant of the whole program.
-/
namespace Verif.Cli

section
variable {T : Tables} {H : Bytes → UInt64} {lower : Bytes → Bytes} {rows : List Row} {threads : Nat} {A : Row → Getter → Ans → Prop} {N : Prop}

/-! ### Refinement -/

theorem batch_cli {s : Batch} (hr : Batch.Reach T H lower rows threads s) : CReach lower rows threads s.cli := by
  induction hr with
  | init => exact .init
  | step h st ih =>
    cases st with
    | cli hp st hw => exact .step ih st
    | @compare r g pre post job c hp hw hj hd ht hg =>
      by_cases he : errs lower r g = []
      · rw [if_pos he]; exact .step ih (.good g hw he)
      · rw [if_neg he]; exact .step ih (.bad g hw he)
    | _ => exact ih

theorem batch_sys {s : Batch} (hr : Batch.Reach T H lower rows threads s) : BSys.Reach T H s.sys := by
  induction hr with
  | init => exact .init
  | step h st ih =>
    cases st with
    | sys hp st hl => exact .step ih st
    | call hp hj ho ht => exact .step ih (.call _ ht)
    | ret hp hj ht => exact .step ih (.ret ht)
    | _ => exact ih

/-! ### Rows -/

/-- The rows compared and what was got for them. -/
def Worker.res : Worker → List (Row × Got)
  | .lock r g | .write r g _ | .fin r g => [(r, g)]
  | _ => []

def CState.results (c : CState) : List (Row × Got) := c.handled ++ c.workers.flatMap Worker.res

/-- The user agent occurs in one row only. -/
def Once (rows : List Row) (u : Bytes) : Prop := (rows.map (·.ua)).count u ≤ 1

theorem perm_rows {c : CState} (I : CInv lower rows threads c) :
    rows.Perm (c.handled.map (·.1) ++ c.workers.flatMap Worker.item ++ c.chan ++ rows.drop c.sent) := by
  rw [List.perm_iff_count]
  intro r
  rw [I.cnt r]
  simp only [List.count_append]

theorem work_mem {c : CState} (I : CInv lower rows threads c) {i : Nat} {r : Row} (h : c.workers[i]? = some (.work r)) : r ∈ rows := by
  rw [(perm_rows I).mem_iff]
  simp only [List.mem_append, List.mem_flatMap]
  exact .inl (.inl (.inr ⟨_, List.mem_of_getElem? h, by simp [Worker.item]⟩))

theorem results_mem {c : CState} (I : CInv lower rows threads c) {x : Row × Got} (h : x ∈ c.results) : x.1 ∈ rows := by
  rw [(perm_rows I).mem_iff]
  simp only [CState.results, List.mem_append, List.mem_flatMap] at h
  simp only [List.mem_append, List.mem_flatMap, List.mem_map]
  rcases h with h | ⟨w, h1, h2⟩
  · exact .inl (.inl (.inl ⟨x, h, rfl⟩))
  · refine .inl (.inl (.inr ⟨w, h1, ?_⟩))
    cases w <;> simp [Worker.res] at h2 <;> simp [Worker.item, h2]

theorem count_of_mem {α : Type} [BEq α] [LawfulBEq α] {a : α} {l : List α} (h : a ∈ l) : 1 ≤ l.count a := List.count_pos_iff.mpr h

theorem two_items {ws : List Worker} {i j : Nat} (hij : i < j) {a b : Worker} (hi : ws[i]? = some a) (hj : ws[j]? = some b) :
    ∃ p m q, ws = p ++ a :: (m ++ b :: q) := by
  induction ws generalizing i j with
  | nil => simp at hi
  | cons x ws ih =>
    cases j with
    | zero => omega
    | succ j =>
      rw [List.getElem?_cons_succ] at hj
      cases i with
      | zero =>
        rw [List.getElem?_cons_zero] at hi
        obtain ⟨m, q, rfl⟩ := List.append_of_mem (List.mem_of_getElem? hj)
        exact ⟨[], m, q, by simp [Option.some.inj hi]⟩
      | succ i =>
        rw [List.getElem?_cons_succ] at hi
        obtain ⟨p, m, q, rfl⟩ := ih (by omega) hi hj
        exact ⟨x :: p, m, q, rfl⟩

/-- A user agent of one row only is not worked on twice. -/
theorem once_work {c : CState} (I : CInv lower rows threads c) {i j : Nat} {r r' : Row} (hi : c.workers[i]? = some (.work r)) (hj : c.workers[j]? = some (.work r'))
    (hu : r.ua = r'.ua) (ho : Once rows r.ua) : i = j := by
  have key : ∀ {i j : Nat} {r r' : Row}, i < j → c.workers[i]? = some (.work r) → c.workers[j]? = some (.work r') → r.ua = r'.ua → Once rows r.ua → False := by
    intro i j r r' hij hi hj hu ho
    obtain ⟨p, m, q, e⟩ := two_items hij hi hj
    have := ((perm_rows I).map (·.ua)).count_eq r.ua
    unfold Once at ho
    rw [this, e] at ho
    simp only [List.flatMap_append, List.flatMap_cons, Worker.item, List.map_append, List.map_cons, List.map_nil, List.count_append, List.count_cons, hu, List.count_nil, beq_self_eq_true, if_true] at ho
    omega
  rcases Nat.lt_trichotomy i j with h | h | h
  · exact (key h hi hj hu ho).elim
  · exact h
  · exact (key h hj hi hu.symm (hu ▸ ho)).elim

/-- Nor again after it was worked on. -/
theorem once_done {c : CState} (I : CInv lower rows threads c) {i : Nat} {r : Row} (hi : c.workers[i]? = some (.work r)) {x : Row × Got} (hx : x ∈ c.results)
    (hu : x.1.ua = r.ua) (ho : Once rows r.ua) : False := by
  have hc := ((perm_rows I).map (·.ua)).count_eq r.ua
  unfold Once at ho
  rw [hc] at ho
  simp only [CState.results, List.mem_append, List.mem_flatMap] at hx
  simp only [List.map_append, List.count_append] at ho
  have h1 : 1 ≤ ((c.workers.flatMap Worker.item).map (·.ua)).count r.ua :=
    count_of_mem (List.mem_map.mpr ⟨r, List.mem_flatMap.mpr ⟨_, List.mem_of_getElem? hi, by simp [Worker.item]⟩, rfl⟩)
  rcases hx with h | ⟨w, hw, hx⟩
  · have : 1 ≤ ((c.handled.map (·.1)).map (·.ua)).count r.ua := count_of_mem (List.mem_map.mpr ⟨x.1, List.mem_map.mpr ⟨x, h, rfl⟩, hu⟩)
    omega
  · obtain ⟨j, hj⟩ := List.getElem?_of_mem hw
    have hwi : w.item = [x.1] ∧ w ≠ .work r := by cases w <;> simp [Worker.res] at hx <;> simp [Worker.item, hx]
    have hne : i ≠ j := by
      rintro rfl
      rw [hi] at hj
      exact hwi.2 (Option.some.inj hj).symm
    have : ∃ p m q a b, c.workers = p ++ a :: (m ++ b :: q) ∧ (∃ y, a.item = [y] ∧ y.ua = r.ua) ∧ (∃ y, b.item = [y] ∧ y.ua = r.ua) := by
      rcases Nat.lt_or_gt_of_ne hne with h | h
      · obtain ⟨p, m, q, e⟩ := two_items h hi hj
        exact ⟨p, m, q, _, _, e, ⟨r, rfl, rfl⟩, ⟨_, hwi.1, hu⟩⟩
      · obtain ⟨p, m, q, e⟩ := two_items h hj hi
        exact ⟨p, m, q, _, _, e, ⟨_, hwi.1, hu⟩, ⟨r, rfl, rfl⟩⟩
    obtain ⟨p, m, q, a, b, e, ⟨y, ha, hay⟩, ⟨z, hb, hbz⟩⟩ := this
    rw [e] at ho
    simp only [List.flatMap_append, List.flatMap_cons, ha, hb, List.map_append, List.map_cons, List.map_nil, List.count_append, List.count_cons, hay, hbz,
      List.count_nil, beq_self_eq_true, if_true] at ho
    omega

/-- Control steps keep results. -/
theorem results_step {c c' : CState} (st : CStep lower rows threads c c')
    (hw : ∀ (i : Nat) r, c.workers[i]? = some (.work r) → c'.workers[i]? = some (.work r)) : ∀ x, x ∈ c'.results ↔ x ∈ c.results := by
  intro x
  cases st with
  | good g hw' he =>
    have := hw _ _ (by rw [hw']; exact getElem?_mid)
    simp at this
  | bad g hw' he =>
    have := hw _ _ (by rw [hw']; exact getElem?_mid)
    simp at this
  | send h hc hl => exact Iff.rfl
  | close h hc => exact Iff.rfl
  | recv h0 hc => simp [CState.results, h0, Worker.res]
  | stop h0 hc hcl => simp [CState.results, h0, Worker.res]
  | lock h0 hm => simp [CState.results, h0, Worker.res]
  | write h0 => simp [CState.results, h0, Worker.res]
  | unlock h0 => simp [CState.results, h0, Worker.res]
  | count h0 =>
    simp only [CState.results, h0, List.flatMap_append, List.flatMap_cons, Worker.res, List.mem_append, List.mem_singleton, List.nil_append]
    constructor
    · rintro ((h | h) | h | h)
      · exact .inl h
      · exact .inr (.inr (.inl h))
      · exact .inr (.inl h)
      · exact .inr (.inr (.inr h))
    · rintro (h | h | h | h)
      · exact .inl (.inl h)
      · exact .inr (.inl h)
      · exact .inl (.inr h)
      · exact .inr (.inr h)

/-! ### What a worker knows about its context -/

/-- Every way the program may end meets `Q`, whatever the cache does. -/
def Leaves {α : Type} (Q : α → Prop) : Prog α → Prop
  | .ret a => Q a
  | .get _ f => ∀ x, Leaves Q (f x)
  | .set _ _ p => Leaves Q p

theorem leaves_bind {α β : Type} {Q : β → Prop} {f : α → Prog β} (hf : ∀ a, Leaves Q (f a)) : ∀ p : Prog α, Leaves Q (p.bind f)
  | .ret a => hf a
  | .get _ g => fun x => leaves_bind hf (g x)
  | .set _ _ p => leaves_bind hf p

/-- A getter that does not panic gives an answer. -/
def Gives (r : Ctx × Option (Option Ans)) : Prop := r.2 ≠ some none

theorem gives_get (g : Getter) (c : Ctx) : Leaves Gives ((Op.get g).prog T H c) := by
  have h : (Op.get g).prog T H = M.map some (Getter.prog T g) := rfl
  rw [h]
  unfold M.map
  rw [M.bind_apply]
  apply leaves_bind
  rintro ⟨c, o⟩
  cases o with
  | none => exact fun h => by cases h
  | some a => exact fun h => by cases h

/-- The context is executing the getter `g`. -/
inductive Asks (g : Getter) : BThread → Prop where
  | busy {p} (h : Leaves Gives p) : Asks g (.busy (.get g) p)
  | reading {k p f} (h : ∀ x, Leaves Gives (f x)) : Asks g (.reading (.get g) k p f)

/-- The answer `a` of getter `g` for row `r` is the one given without a cache, unless it is that of GetModel for a repeated user agent. -/
def GoodAns (T : Tables) (H : Bytes → UInt64) (rows : List Row) (r : Row) (g : Getter) (a : Ans) : Prop :=
  g ≠ .model ∨ Once rows r.ua → uncached T H g { ua := r.ua } = some a

/-- The answers `as` of `gs` for row `r` meet `A`. -/
def AllGood (A : Row → Getter → Ans → Prop) (r : Row) : List Getter → List Ans → Prop
  | [], [] => True
  | g :: gs, a :: as => A r g a ∧ AllGood A r gs as
  | _, _ => False

theorem AllGood.snoc {r : Row} {g : Getter} {a : Ans} (h1 : A r g a) : ∀ {gs : List Getter} {as : List Ans}, AllGood A r gs as →
    AllGood A r (gs ++ [g]) (as ++ [a])
  | [], [], _ => ⟨h1, trivial⟩
  | _ :: _, _ :: _, h => ⟨h.1, h.2.snoc h1⟩
  | [], _ :: _, h => h.elim
  | _ :: _, [], h => h.elim

/-- Context `t` was set to the user agent of `r` and has been asked `gs` since. -/
def Sess (rows : List Row) (log : List Event) (t : Nat) (r : Row) (gs : List Getter) : Prop :=
  ∃ pre l, log = pre ++ l ∧ reqOf pre t = { ua := r.ua } ∧ reqOf log t = { ua := r.ua } ∧ (Once rows r.ua → NoUse r.ua pre) ∧
    (∀ op, .call t op ∈ l → ∃ g, op = .get g) ∧ getsOf t l = gs

theorem Sess.ua {log : List Event} {t : Nat} {r : Row} {gs : List Getter} (h : Sess rows log t r gs) : (reqOf log t).ua = r.ua := by
  obtain ⟨pre, l, h1, h2, h3, -⟩ := h
  rw [h3]

theorem Sess.ret {log : List Event} {t : Nat} {r : Row} {gs : List Getter} (h : Sess rows log t r gs) (t' : Nat) (op : Op) (x : Option (Option Ans)) :
    Sess rows (log ++ [.ret t' op x]) t r gs := by
  obtain ⟨pre, l, h1, h2, h3, h4, h5, h6⟩ := h
  refine ⟨pre, l ++ [.ret t' op x], by rw [h1, List.append_assoc], h2, by rw [reqOf_ret, h3], h4, fun op' ho => h5 op' (by simpa using ho), ?_⟩
  rw [getsOf_snoc, h6]; simp [getsOf]

theorem Sess.other {log : List Event} {t t' : Nat} (ht : t' ≠ t) {r : Row} {gs : List Getter} (h : Sess rows log t r gs) (op : Op) :
    Sess rows (log ++ [.call t' op]) t r gs := by
  obtain ⟨pre, l, h1, h2, h3, h4, h5, h6⟩ := h
  refine ⟨pre, l ++ [.call t' op], by rw [h1, List.append_assoc], h2, by rw [reqOf_call_ne _ _ (Ne.symm ht), h3], h4, fun op' ho => h5 op' ?_, ?_⟩
  · simpa [Ne.symm ht] using ho
  · rw [getsOf_snoc, h6]
    cases op <;> simp [getsOf, ht]

theorem Sess.ask {log : List Event} {t : Nat} {r : Row} {gs : List Getter} (h : Sess rows log t r gs) (g : Getter) :
    Sess rows (log ++ [.call t (.get g)]) t r (gs ++ [g]) := by
  obtain ⟨pre, l, h1, h2, h3, h4, h5, h6⟩ := h
  refine ⟨pre, l ++ [.call t (.get g)], by rw [h1, List.append_assoc], h2, by rw [reqOf_call, h3]; rfl, h4, fun op' ho => ?_, ?_⟩
  · simp only [List.mem_append, List.mem_singleton, Event.call.injEq, true_and] at ho
    rcases ho with ho | ho
    · exact h5 op' ho
    · exact ⟨g, ho⟩
  · rw [getsOf_snoc, h6]; simp [getsOf]

/-- The stages of a row. -/
inductive Phase (A : Row → Getter → Ans → Prop) (rows : List Row) (log : List Event) (t : Nat) (r : Row) : BThread → List Op → List Ans → Prop where
  | start {c} : Phase A rows log t r (.idle c) (script r) []
  | setting {c} (hs : Sess rows log t r []) : Phase A rows log t r (.busy (.setUserAgent r.ua) (.ret (c, some none))) (asked.map .get ++ [.reset]) []
  | asking {c gs gs' as} (hg : asked = gs ++ gs') (hs : Sess rows log t r gs) (ha : AllGood A r gs as) :
      Phase A rows log t r (.idle c) (gs'.map .get ++ [.reset]) as
  | waiting {th gs g gs' as} (hg : asked = gs ++ g :: gs') (hs : Sess rows log t r (gs ++ [g])) (ha : AllGood A r gs as)
      (hth : Asks g th) : Phase A rows log t r th (gs'.map .get ++ [.reset]) as
  | resetting {c as} (ha : AllGood A r asked as) : Phase A rows log t r (.busy .reset (.ret (c, some none))) [] as
  | finished {c as} (ha : AllGood A r asked as) : Phase A rows log t r (.idle c) [] as

theorem Phase.ret {log : List Event} {t : Nat} {r : Row} {th : BThread} {todo : List Op} {as : List Ans} (h : Phase A rows log t r th todo as)
    (t' : Nat) (op : Op) (x : Option (Option Ans)) : Phase A rows (log ++ [.ret t' op x]) t r th todo as := by
  cases h with
  | start => exact .start
  | setting hs => exact .setting (hs.ret _ _ _)
  | asking hg hs ha => exact .asking hg (hs.ret _ _ _) ha
  | waiting hg hs ha hth => exact .waiting hg (hs.ret _ _ _) ha hth
  | resetting ha => exact .resetting ha
  | finished ha => exact .finished ha

theorem Phase.other {log : List Event} {t t' : Nat} (ht : t' ≠ t) {r : Row} {th : BThread} {todo : List Op} {as : List Ans}
    (h : Phase A rows log t r th todo as) (op : Op) : Phase A rows (log ++ [.call t' op]) t r th todo as := by
  cases h with
  | start => exact .start
  | setting hs => exact .setting (hs.other ht _)
  | asking hg hs ha => exact .asking hg (hs.other ht _) ha
  | waiting hg hs ha hth => exact .waiting hg (hs.other ht _) ha hth
  | resetting ha => exact .resetting ha
  | finished ha => exact .finished ha

/-- A getter was called on the job's context. -/
def Job.asked (j : Job) : Prop := j.todo.length ≤ 10

structure BatchInv (A : Row → Getter → Ans → Prop) (N : Prop) (rows : List Row) (s : Batch) : Prop where
  rq : ∀ t, ∃ u, reqOf s.sys.log t = { ua := u }
  us : ∀ t q, UsedBy t s.sys.log q → (∃ u, q = { ua := u }) ∧ ((∃ x ∈ s.cli.results, q.ua = x.1.ua) ∨
    ∃ (i : Nat) (job : Job) (r : Row), s.jobs i = some job ∧ s.cli.workers[i]? = some (.work r) ∧ job.ctx = t ∧ q.ua = r.ua ∧ job.asked)
  inj : ∀ i i' j j', s.jobs i = some j → s.jobs i' = some j' → j.ctx = j'.ctx → i = i'
  job : ∀ (i : Nat) (j : Job), s.jobs i = some j → ∃ r, s.cli.workers[i]? = some (.work r) ∧ Phase A rows s.sys.log j.ctx r (s.sys.threads j.ctx) j.todo j.got
  free : ∀ t, (∀ i j, s.jobs i = some j → j.ctx ≠ t) → ∃ c, s.sys.threads t = .idle c
  res : ∀ x ∈ s.cli.results, ∃ as, gotOf as = some x.2 ∧ AllGood A x.1 asked as
  np : s.panicked = true → N

/-- User agents of the file. -/
def InRows (rows : List Row) (u : Bytes) : Prop := ∃ r ∈ rows, u = r.ua

/-- The answer that is about to be given. -/
theorem answer_good {s : Batch} (hr : Batch.Reach T H lower rows threads s) (I : BatchInv A N rows s)
    (hH : ∀ u u', InRows rows u → InRows rows u' → H u = H u' → u = u') (hok : ∀ r ∈ rows, ∀ g ∈ asked, uncached T H g { ua := r.ua } ≠ none)
    (hsize : ∀ r ∈ rows, 10 * growth T r.ua + modelBound T r.ua < 2 ^ 32) {i : Nat} {job : Job} {r : Row} (hj : s.jobs i = some job)
    (hw : s.cli.workers[i]? = some (.work r)) {gs gs' : List Getter} {g : Getter} (hg : asked = gs ++ g :: gs')
    (hs : Sess rows s.sys.log job.ctx r (gs ++ [g])) {c : Ctx} {x : Option (Option Ans)} (ht : s.sys.threads job.ctx = .busy (.get g) (.ret (c, x)))
    (h : g ≠ .model ∨ Once rows r.ua) : x = (uncached T H g { ua := r.ua }).map some := by
  have hrow := work_mem (cinv (batch_cli hr)) hw
  have hr' := BSys.Reach.step (batch_sys hr) (.ret ht)
  obtain ⟨pre, l, h1, h2, h3, h4, h5, h6⟩ := hs
  have hgm : g ∈ asked := by rw [hg]; simp
  obtain ⟨a, ha⟩ := Option.ne_none_iff_exists'.mp (hok r hrow g hgm)
  have hal : Alone H s.sys.log (reqOf s.sys.log job.ctx).ua := by
    rintro q ⟨a, b, t, g', hu, e⟩ he
    rw [h3] at he ⊢
    refine hH q.ua r.ua ?_ ⟨r, hrow, rfl⟩ he
    obtain ⟨-, ⟨y, hy, hyu⟩ | ⟨i', job', r', hj', hw', hc', hu', -⟩⟩ := I.us t q ⟨a, b, g', hu, e⟩
    · exact ⟨y.1, results_mem (cinv (batch_cli hr)) hy, hyu⟩
    · exact ⟨r', work_mem (cinv (batch_cli hr)) hw', hu'⟩
  by_cases hm : g = .model
  · have ho := h.resolve_left (fun h => h hm)
    have hlen : (gs ++ [g]).length ≤ 10 := by
      have := congrArg List.length hg
      simp [asked] at this ⊢
      omega
    have := C20_sole_builtin_partial (t := job.ctx) (pre1 := pre) (l := l) (post := []) (g := g) (r := x) hr' (by rw [← h1]) (by rw [← h1]; exact hal)
      (by
        rw [h2]
        refine ⟨h4 ho, h5, fun t' ht' q hq hqu => ?_⟩
        rw [← h1] at hq
        have hqu : q.ua = r.ua := hqu
        obtain ⟨-, ⟨y, hy, hyu⟩ | ⟨i', job', r', hj', hw', hc', hu', -⟩⟩ := I.us t' q hq
        · exact once_done (cinv (batch_cli hr)) hw hy (hyu.symm.trans hqu) ho
        · have hi : i = i' := once_work (cinv (batch_cli hr)) hw hw' (hqu.symm.trans hu') ho
          subst hi
          rw [hj] at hj'
          cases hj'
          exact ht' hc'.symm)
      (by
        rw [h2, h6]
        intro g' hg'
        refine hok r hrow g' ?_
        rw [hg]
        simp only [List.mem_append, List.mem_cons, List.not_mem_nil, or_false] at hg' ⊢
        rcases hg' with h | h
        · exact .inl h
        · exact .inr (.inl h))
      (by
        rw [h2, h6]
        have := hsize r hrow
        have := Nat.mul_le_mul_right (growth T r.ua) hlen
        show (gs ++ [g]).length * growth T r.ua + modelBound T r.ua < _
        omega)
    rw [this, ← h1, h3]
  · rw [ha]
    have := C64_as_uncached_partial (t := job.ctx) (pre := s.sys.log) (post := []) (g := g) (r := x) hr' rfl hal hm
      (by
        rintro q' ⟨a, b, t, g', h7, h8⟩ -
        obtain ⟨⟨u, rfl⟩, -⟩ := I.us t q' ⟨a, b, g', h7, h8⟩
        rw [h3]
        exact ⟨rfl, rfl⟩) (a := a) (by rw [h3]; exact ha)
    exact this

theorem usedBy_snoc {t : Nat} {log : List Event} {e : Event} {q : Req} (h : UsedBy t (log ++ [e]) q) :
    UsedBy t log q ∨ ∃ g, e = .call t (.get g) ∧ reqOf log t = q := by
  obtain ⟨a, b, g, h1, h2⟩ := h
  rcases List.eq_nil_or_concat b with rfl | ⟨b, x, rfl⟩
  · have e1 := List.append_inj_left' h1 rfl
    have e2 := List.append_inj_right' h1 rfl
    simp only [List.cons.injEq, and_true] at e2
    exact .inr ⟨g, e2, by rw [e1]; exact h2⟩
  · rw [List.concat_eq_append, ← List.cons_append, ← List.append_assoc] at h1
    exact .inl ⟨a, b, g, List.append_inj_left' h1 rfl, h2⟩

theorem jput_same (s : Batch) (i : Nat) (j : Option Job) : s.put i j i = j := by simp [Batch.put]
theorem jput_ne (s : Batch) {i k : Nat} (j : Option Job) (h : k ≠ i) : s.put i j k = s.jobs k := by simp [Batch.put, h]

theorem script_length (r : Row) : (script r).length = 12 := rfl

theorem results_start : (CState.start threads).results = [] := by
  simp only [CState.results, CState.start, List.nil_append, List.flatMap_eq_nil_iff]
  intro w hw
  rw [List.eq_of_mem_replicate hw]
  rfl

/-- Steps inside a getter. -/
theorem phase_sys {b b' : BSys} (hr : BSys.Reach T H b) (st : BSys.Step T H b b') (hl : b'.log = b.log) {t : Nat} {r : Row} {todo : List Op} {as : List Ans}
    (h : Phase A rows b.log t r (b.threads t) todo as) : Phase A rows b'.log t r (b'.threads t) todo as := by
  have hcr := C64_no_panic (.step hr st) t
  have key : ∀ (t0 : Nat) (th : BThread), b'.threads = b.put t0 th → (t0 = t → (∃ op p, b.threads t = .busy op p ∧ ∀ x, p ≠ .ret x) ∨ (∃ op k p f, b.threads t = .reading op k p f)) →
      (∀ g, t0 = t → Asks g (b.threads t) → Asks g th ∨ th = .crashed) → Phase A rows b'.log t r (b'.threads t) todo as := by
    intro t0 th e1 e2 e3
    rw [hl]
    by_cases et : t0 = t
    · subst et
      rw [e1, bput_same] at hcr ⊢
      generalize b.threads t0 = b0 at h e2 e3
      cases h with
      | start => obtain ⟨_, _, h, -⟩ | ⟨_, _, _, _, h⟩ := e2 rfl <;> cases h
      | setting hs => obtain ⟨_, _, h, h'⟩ | ⟨_, _, _, _, h⟩ := e2 rfl <;> cases h; exact absurd rfl (h' _)
      | asking hg hs ha => obtain ⟨_, _, h, -⟩ | ⟨_, _, _, _, h⟩ := e2 rfl <;> cases h
      | waiting hg hs ha hth => exact .waiting hg hs ha ((e3 _ rfl hth).resolve_right hcr)
      | resetting ha => obtain ⟨_, _, h, h'⟩ | ⟨_, _, _, _, h⟩ := e2 rfl <;> cases h; exact absurd rfl (h' _)
      | finished ha => obtain ⟨_, _, h, -⟩ | ⟨_, _, _, _, h⟩ := e2 rfl <;> cases h
    · rw [e1, bput_ne _ _ (Ne.symm et)]
      exact h
  cases st with
  | call op ht => simp at hl
  | ret ht => simp at hl
  | @miss t0 op k f now ht hg =>
    refine key t0 _ rfl (fun e => .inl ⟨_, _, by rw [← e]; exact ht, fun _ h => by cases h⟩) fun g e h => ?_
    subst e; rw [ht] at h
    cases h with | busy h => exact .inl (.busy (h _))
  | @hit t0 op k f p now ht hg =>
    refine key t0 _ rfl (fun e => .inl ⟨_, _, by rw [← e]; exact ht, fun _ h => by cases h⟩) fun g e h => ?_
    subst e; rw [ht] at h
    cases h with | busy h => exact .inl (.reading h)
  | @read t0 op k p f ht =>
    refine key t0 _ rfl (fun e => .inr ⟨_, _, _, _, by rw [← e]; exact ht⟩) fun g e h => ?_
    subst e; rw [ht] at h
    cases h with | reading h => exact .inl (.busy (h _))
  | @set t0 op k e p c now ht hs =>
    refine key t0 _ rfl (fun e => .inl ⟨_, _, by rw [← e]; exact ht, fun _ h => by cases h⟩) fun g e h => ?_
    subst e; rw [ht] at h
    cases h with | busy h => exact .inl (.busy h)
  | @crash t0 op k e p now ht hs =>
    refine key t0 _ rfl (fun e => .inl ⟨_, _, by rw [← e]; exact ht, fun _ h => by cases h⟩) fun g e h => .inr rfl
  | clean now => exact h

/-- Steps inside a getter leave idle contexts alone. -/
theorem idle_sys {b b' : BSys} (st : BSys.Step T H b b') (hl : b'.log = b.log) {t : Nat} {c : Ctx} (h : b.threads t = .idle c) : b'.threads t = .idle c := by
  have key : ∀ (t0 : Nat) (th : BThread), b'.threads = b.put t0 th → (∀ c, b.threads t0 ≠ .idle c) → b'.threads t = .idle c := by
    intro t0 th e1 e2
    by_cases et : t0 = t
    · subst et; exact absurd h (e2 c)
    · rw [e1, bput_ne _ _ (Ne.symm et), h]
  cases st with
  | call op ht => simp at hl
  | ret ht => simp at hl
  | miss now ht hg => exact key _ _ rfl (fun c h => by rw [ht] at h; cases h)
  | hit now ht hg => exact key _ _ rfl (fun c h => by rw [ht] at h; cases h)
  | read ht => exact key _ _ rfl (fun c h => by rw [ht] at h; cases h)
  | set now ht hs => exact key _ _ rfl (fun c h => by rw [ht] at h; cases h)
  | crash now ht hs => exact key _ _ rfl (fun c h => by rw [ht] at h; cases h)
  | clean now => exact h

theorem batch_inv_gen {s : Batch} (hr : Batch.Reach T H lower rows threads s)
    (hA : ∀ {s : Batch}, Batch.Reach T H lower rows threads s → BatchInv A N rows s → ∀ {i job r gs g gs' c x}, s.jobs i = some job →
      s.cli.workers[i]? = some (.work r) → asked = gs ++ g :: gs' → Sess rows s.sys.log job.ctx r (gs ++ [g]) →
      s.sys.threads job.ctx = .busy (.get g) (.ret (c, x)) → (∀ a, x = some (some a) → A r g a) ∧ (x = none → N)) : BatchInv A N rows s := by
  induction hr with
  | init =>
    refine ⟨fun t => ⟨[], rfl⟩, ?_, ?_, ?_, fun t _ => ⟨_, rfl⟩, ?_, ?_⟩
    · rintro t q ⟨a, b, g, h, -⟩
      simp [Batch.start, BSys.init] at h
    · intro i i' j j' h; cases h
    · intro i j h; cases h
    · intro x hx
      have hx : x ∈ (CState.start threads).results := hx
      rw [results_start] at hx
      simp at hx
    · intro h; cases h
  | @step s s' hr st I =>
    have C := cinv (batch_cli hr)
    cases st with
    | @cli c' hp st hw =>
      have hres := results_step st hw
      refine ⟨I.rq, ?_, I.inj, ?_, I.free, ?_, I.np⟩
      · intro t q hq
        obtain ⟨h1, ⟨x, hx, h2⟩ | ⟨i, job, r, hj, hw', h2⟩⟩ := I.us t q hq
        · exact ⟨h1, .inl ⟨x, (hres x).mpr hx, h2⟩⟩
        · exact ⟨h1, .inr ⟨i, job, r, hj, hw i r hw', h2⟩⟩
      · intro i j hj
        obtain ⟨r, hw', h⟩ := I.job i j hj
        exact ⟨r, hw i r hw', h⟩
      · exact fun x hx => I.res x ((hres x).mp hx)
    | @sys b' hp st hl =>
      refine ⟨by rw [hl]; exact I.rq, ?_, I.inj, ?_, ?_, I.res, I.np⟩
      · show ∀ t q, UsedBy t b'.log q → _
        rw [hl]; exact I.us
      · intro i j hj
        obtain ⟨r, hw', h⟩ := I.job i j hj
        exact ⟨r, hw', phase_sys (batch_sys hr) st hl h⟩
      · intro t ht
        obtain ⟨c, hc⟩ := I.free t ht
        exact ⟨c, idle_sys st hl hc⟩
    | @acquire i r t c hp hw hj ht hf =>
      have old : ∀ {k : Nat} {job : Job}, s.jobs k = some job → s.put i (some ⟨t, script r, []⟩) k = some job := by
        intro k job h
        rw [jput_ne]
        · exact h
        · rintro rfl; rw [hj] at h; cases h
      have new : ∀ {k : Nat} {job : Job}, s.put i (some ⟨t, script r, []⟩) k = some job → (k = i ∧ job = ⟨t, script r, []⟩) ∨ s.jobs k = some job := by
        intro k job h
        by_cases ek : k = i
        · subst ek; rw [jput_same] at h; exact .inl ⟨rfl, (Option.some.inj h).symm⟩
        · rw [jput_ne _ _ ek] at h; exact .inr h
      refine ⟨I.rq, ?_, ?_, ?_, ?_, I.res, I.np⟩
      · intro t' q hq
        obtain ⟨h1, h2 | ⟨i', job, r', hj', hw', h2⟩⟩ := I.us t' q hq
        · exact ⟨h1, .inl h2⟩
        · exact ⟨h1, .inr ⟨i', job, r', old hj', hw', h2⟩⟩
      · intro k k' j j' h h' he
        rcases new h with ⟨rfl, rfl⟩ | h1 <;> rcases new h' with ⟨rfl, rfl⟩ | h2
        · rfl
        · exact absurd he.symm (hf _ _ h2)
        · exact absurd he (hf _ _ h1)
        · exact I.inj _ _ _ _ h1 h2 he
      · intro k j h
        rcases new h with ⟨rfl, rfl⟩ | h
        · refine ⟨r, hw, ?_⟩
          show Phase A rows s.sys.log t r (s.sys.threads t) (script r) []
          rw [ht]; exact .start
        · exact I.job k j h
      · exact fun t' ht' => I.free t' fun k j hk => ht' k j (old hk)
    | @call i job op rest c hp hj ho ht =>
      obtain ⟨r, hw, hph⟩ := I.job i job hj
      have hrow := work_mem C hw
      have new : ∀ {k : Nat} {j : Job}, s.put i (some { job with todo := rest }) k = some j → (k = i ∧ j = { job with todo := rest }) ∨ (k ≠ i ∧ s.jobs k = some j) := by
        intro k j h
        by_cases ek : k = i
        · subst ek; rw [jput_same] at h; exact .inl ⟨rfl, (Option.some.inj h).symm⟩
        · rw [jput_ne _ _ ek] at h; exact .inr ⟨ek, h⟩
      -- what is called
      have hcase : (op = .setUserAgent r.ua ∧ job.todo = script r ∧ rest = asked.map .get ++ [.reset] ∧ job.got = []) ∨
          (∃ gs g gs', op = .get g ∧ asked = gs ++ g :: gs' ∧ rest = gs'.map .get ++ [.reset] ∧ Sess rows s.sys.log job.ctx r gs ∧ AllGood A r gs job.got) ∨
          (op = .reset ∧ rest = [] ∧ AllGood A r asked job.got) := by
        rw [ht] at hph
        generalize job.todo = todo at hph ho
        generalize job.got = got at hph
        cases hph with
        | start =>
          simp only [script, List.cons.injEq] at ho
          exact .inl ⟨ho.1.symm, rfl, ho.2.symm, rfl⟩
        | @asking _ gs gs' as hg hs ha =>
          cases gs' with
          | nil =>
            simp only [List.map_nil, List.nil_append, List.cons.injEq] at ho
            rw [List.append_nil] at hg
            subst hg
            exact .inr (.inr ⟨ho.1.symm, ho.2.symm, ha⟩)
          | cons g gs' =>
            simp only [List.map_cons, List.cons_append, List.cons.injEq] at ho
            exact .inr (.inl ⟨gs, g, gs', ho.1.symm, hg, ho.2.symm, hs, ha⟩)
        | waiting hg hs ha hth => cases hth
        | finished ha => cases ho
      have hmono : job.asked → ({ job with todo := rest } : Job).asked := by
        intro h
        have h : job.todo.length ≤ 10 := h
        rw [ho, List.length_cons] at h
        show rest.length ≤ 10
        omega
      refine ⟨?_, ?_, ?_, ?_, ?_, I.res, I.np⟩
      · intro t'
        show ∃ u, reqOf (s.sys.log ++ [.call job.ctx op]) t' = _
        by_cases et : t' = job.ctx
        · subst et
          obtain ⟨u, hu⟩ := I.rq job.ctx
          rw [reqOf_call, hu]
          rcases hcase with ⟨rfl, -⟩ | ⟨_, g, _, rfl, -⟩ | ⟨rfl, -⟩
          · exact ⟨r.ua, rfl⟩
          · exact ⟨u, rfl⟩
          · exact ⟨[], rfl⟩
        · rw [reqOf_call_ne _ _ et]; exact I.rq t'
      · intro t' q hq
        have hq : UsedBy t' (s.sys.log ++ [.call job.ctx op]) q := hq
        rcases usedBy_snoc hq with hq0 | ⟨g, he, hq1⟩
        · obtain ⟨h1, h2 | ⟨i', job', r', hj', hw', h2, h3, h4⟩⟩ := I.us t' q hq0
          · exact ⟨h1, .inl h2⟩
          · refine ⟨h1, .inr ?_⟩
            by_cases ei : i' = i
            · subst ei
              rw [hj] at hj'
              cases hj'
              exact ⟨i', { job with todo := rest }, r', jput_same _ _ _, hw', h2, h3, hmono h4⟩
            · exact ⟨i', job', r', by rw [← hj']; exact jput_ne _ _ ei, hw', h2, h3, h4⟩
        · simp only [Event.call.injEq] at he
          obtain ⟨rfl, rfl⟩ := he
          rcases hcase with ⟨h, -⟩ | ⟨gs, g', gs', h, hg, hrest, hs, -⟩ | ⟨h, -⟩
          · cases h
          · obtain ⟨_, _, _, _, h3, _⟩ := hs
            rw [h3] at hq1
            subst hq1
            refine ⟨⟨_, rfl⟩, .inr ⟨i, { job with todo := rest }, r, jput_same _ _ _, hw, rfl, rfl, ?_⟩⟩
            show rest.length ≤ 10
            rw [hrest]
            have := congrArg List.length hg
            simp [asked] at this ⊢
            omega
          · cases h
      · intro k k' j j' h h' he
        rcases new h with ⟨rfl, rfl⟩ | ⟨-, h1⟩ <;> rcases new h' with ⟨rfl, rfl⟩ | ⟨-, h2⟩
        · rfl
        · exact I.inj _ _ _ _ hj h2 he
        · exact I.inj _ _ _ _ h1 hj he
        · exact I.inj _ _ _ _ h1 h2 he
      · intro k j h
        rcases new h with ⟨rfl, rfl⟩ | ⟨hk, h⟩
        · refine ⟨r, hw, ?_⟩
          show Phase A rows (s.sys.log ++ [.call job.ctx op]) job.ctx r (s.sys.put job.ctx (.busy op (op.prog T H c)) job.ctx) rest job.got
          rw [bput_same]
          rcases hcase with ⟨rfl, htodo, rfl, hgot⟩ | ⟨gs, g, gs', rfl, hg, rfl, hs, ha⟩ | ⟨rfl, rfl, ha⟩
          · rw [hgot]
            refine .setting (c := c.setUserAgent r.ua) ⟨s.sys.log ++ [.call job.ctx (.setUserAgent r.ua)], [], by simp, ?_, ?_, ?_, by simp, rfl⟩
            · obtain ⟨u, hu⟩ := I.rq job.ctx
              rw [reqOf_call, hu]; rfl
            · obtain ⟨u, hu⟩ := I.rq job.ctx
              rw [reqOf_call, hu]; rfl
            · rintro honce q ⟨a, b, t', g, h1, h2⟩ hqu
              rcases usedBy_snoc ⟨a, b, g, h1, h2⟩ with hq | ⟨g, he, -⟩
              · obtain ⟨-, ⟨x, hx, hxu⟩ | ⟨i', job', r', hj', hw', -, h3, h4⟩⟩ := I.us t' q hq
                · exact once_done C hw hx (hxu.symm.trans hqu) honce
                · have ei := once_work C hw hw' (hqu.symm.trans h3) honce
                  subst ei
                  rw [hj] at hj'
                  cases hj'
                  have h4 : job.todo.length ≤ 10 := h4
                  rw [htodo, script_length] at h4
                  omega
              · simp at he
          · exact .waiting hg (hs.ask g) ha (.busy (gives_get g c))
          · exact .resetting (c := c.reset) ha
        · obtain ⟨r', hw', h'⟩ := I.job k j h
          have hne : job.ctx ≠ j.ctx := fun e => hk (I.inj _ _ _ _ h hj e.symm)
          refine ⟨r', hw', ?_⟩
          show Phase A rows (s.sys.log ++ [.call job.ctx op]) j.ctx r' (s.sys.put job.ctx _ j.ctx) j.todo j.got
          rw [bput_ne _ _ (Ne.symm hne)]
          exact h'.other hne op
      · intro t' ht'
        have hne : job.ctx ≠ t' := ht' i { job with todo := rest } (jput_same _ _ _)
        show ∃ c', s.sys.put job.ctx _ t' = _
        rw [bput_ne _ _ (Ne.symm hne)]
        refine I.free t' fun k j hk => ?_
        by_cases ek : k = i
        · subst ek; rw [hj] at hk; cases hk; exact hne
        · exact ht' k j (by rw [← hk]; exact jput_ne _ _ ek)
    | @ret i job op c a hp hj ht =>
      obtain ⟨r, hw, hph⟩ := I.job i job hj
      have new : ∀ {k : Nat} {j : Job}, s.put i (some { job with got := job.got ++ a.toList }) k = some j →
          (k = i ∧ j = { job with got := job.got ++ a.toList }) ∨ (k ≠ i ∧ s.jobs k = some j) := by
        intro k j h
        by_cases ek : k = i
        · subst ek; rw [jput_same] at h; exact .inl ⟨rfl, (Option.some.inj h).symm⟩
        · rw [jput_ne _ _ ek] at h; exact .inr ⟨ek, h⟩
      refine ⟨?_, ?_, ?_, ?_, ?_, I.res, I.np⟩
      · intro t'
        show ∃ u, reqOf (s.sys.log ++ [.ret job.ctx op (some a)]) t' = _
        rw [reqOf_ret]; exact I.rq t'
      · intro t' q hq
        have hq : UsedBy t' (s.sys.log ++ [.ret job.ctx op (some a)]) q := hq
        rcases usedBy_snoc hq with hq0 | ⟨g, he, hq1⟩
        · obtain ⟨h1, h2 | ⟨i', job', r', hj', hw', h2, h3, h4⟩⟩ := I.us t' q hq0
          · exact ⟨h1, .inl h2⟩
          · refine ⟨h1, .inr ?_⟩
            by_cases ei : i' = i
            · subst ei
              rw [hj] at hj'
              cases hj'
              exact ⟨i', _, r', jput_same _ _ _, hw', h2, h3, h4⟩
            · exact ⟨i', job', r', by rw [← hj']; exact jput_ne _ _ ei, hw', h2, h3, h4⟩
        · cases he
      · intro k k' j j' h h' he
        rcases new h with ⟨rfl, rfl⟩ | ⟨-, h1⟩ <;> rcases new h' with ⟨rfl, rfl⟩ | ⟨-, h2⟩
        · rfl
        · exact I.inj _ _ _ _ hj h2 he
        · exact I.inj _ _ _ _ h1 hj he
        · exact I.inj _ _ _ _ h1 h2 he
      · intro k j h
        rcases new h with ⟨rfl, rfl⟩ | ⟨hk, h⟩
        · refine ⟨r, hw, ?_⟩
          show Phase A rows (s.sys.log ++ [.ret job.ctx op (some a)]) job.ctx r (s.sys.put job.ctx (.idle c) job.ctx) job.todo (job.got ++ a.toList)
          rw [bput_same]
          have hans := fun {gs gs' g} hg hs => hA hr I (c := c) (x := some a) hj hw (gs := gs) (gs' := gs') (g := g) hg hs
          rw [ht] at hph hans
          generalize job.todo = todo at hph
          generalize job.got = got at hph
          cases hph with
          | setting hs =>
            exact .asking (gs := []) rfl (hs.ret _ _ _) trivial
          | @waiting _ gs g gs' as hg hs ha hth =>
            cases hth with
            | busy h =>
              cases a with
              | none => exact absurd rfl h
              | some x =>
                refine .asking (gs := gs ++ [g]) (by rw [hg]; simp) (hs.ret _ _ _) (ha.snoc ((hans hg hs rfl).1 x rfl))
          | resetting ha =>
            simp only [Option.toList_none, List.append_nil]
            exact .finished ha
        · obtain ⟨r', hw', h'⟩ := I.job k j h
          have hne : job.ctx ≠ j.ctx := fun e => hk (I.inj _ _ _ _ h hj e.symm)
          refine ⟨r', hw', ?_⟩
          show Phase A rows (s.sys.log ++ [.ret job.ctx op (some a)]) j.ctx r' (s.sys.put job.ctx _ j.ctx) j.todo j.got
          rw [bput_ne _ _ (Ne.symm hne)]
          exact h'.ret _ _ _
      · intro t' ht'
        have hne : job.ctx ≠ t' := ht' i { job with got := job.got ++ a.toList } (jput_same _ _ _)
        show ∃ c', s.sys.put job.ctx _ t' = _
        rw [bput_ne _ _ (Ne.symm hne)]
        refine I.free t' fun k j hk => ?_
        by_cases ek : k = i
        · subst ek; rw [hj] at hk; cases hk; exact hne
        · exact ht' k j (by rw [← hk]; exact jput_ne _ _ ek)
    | @panic i job op c hp hj ht =>
      refine ⟨I.rq, I.us, I.inj, I.job, I.free, I.res, fun _ => ?_⟩
      obtain ⟨r, hw, hph⟩ := I.job i job hj
      have hans := fun {gs gs' g} hg hs => hA hr I (c := c) (x := none) hj hw (gs := gs) (gs' := gs') (g := g) hg hs
      rw [ht] at hph hans
      generalize job.todo = todo at hph
      generalize job.got = got at hph
      cases hph with
      | @waiting _ gs g gs' as hg hs ha hth =>
        cases hth with
        | busy h =>
          exact (hans hg hs rfl).2 rfl
    | @compare r g pre post job c hp hw hj hd ht hg =>
      have hwi : s.cli.workers[pre.length]? = some (.work r) := by rw [hw]; exact getElem?_mid
      obtain ⟨r', hw', hph⟩ := I.job _ job hj
      rw [hwi] at hw'
      cases hw'
      have hall : AllGood A r asked job.got := by
        rw [ht] at hph
        generalize job.todo = todo at hph hd
        generalize job.got = got at hph
        cases hph with
        | start => cases hd
        | @asking _ gs gs' as hg hs ha => simp at hd
        | waiting hg hs ha hth => cases hth
        | finished ha => exact ha
      generalize hnw : (if errs lower r g = [] then Worker.fin r g else Worker.lock r g) = w
      have hwr : w.res = [(r, g)] ∧ ∀ r0, w ≠ .work r0 := by
        rw [← hnw]
        split <;> exact ⟨rfl, fun _ h => by cases h⟩
      have new : ∀ {k : Nat} {j : Job}, s.put pre.length none k = some j → k ≠ pre.length ∧ s.jobs k = some j := by
        intro k j h
        by_cases ek : k = pre.length
        · subst ek; rw [jput_same] at h; cases h
        · rw [jput_ne _ _ ek] at h; exact ⟨ek, h⟩
      have hres : ∀ x, x ∈ ({ s.cli with workers := pre ++ w :: post } : CState).results ↔ x ∈ s.cli.results ∨ x = (r, g) := by
        intro x
        have hwk : (Worker.work r).res = [] := rfl
        simp only [CState.results, hw, List.flatMap_append, List.flatMap_cons, hwr.1, hwk, List.mem_append, List.mem_singleton, List.nil_append]
        constructor
        · rintro (h | h | h | h)
          · exact .inl (.inl h)
          · exact .inl (.inr (.inl h))
          · exact .inr h
          · exact .inl (.inr (.inr h))
        · rintro ((h | h | h) | h)
          · exact .inl h
          · exact .inr (.inl h)
          · exact .inr (.inr (.inr h))
          · exact .inr (.inr (.inl h))
      have hws : ∀ {k : Nat} {r0 : Row}, k ≠ pre.length → s.cli.workers[k]? = some (.work r0) → (pre ++ w :: post)[k]? = some (.work r0) := by
        intro k r0 hk h
        rw [hw] at h
        rcases getElem?_repl (a := w) h with ⟨h, -⟩ | ⟨-, h⟩
        · exact absurd h hk
        · exact h
      refine ⟨I.rq, ?_, ?_, ?_, ?_, ?_, I.np⟩
      · intro t' q hq
        obtain ⟨h1, ⟨x, hx, h2⟩ | ⟨i', job', r', hj', hw', h2, h3, h4⟩⟩ := I.us t' q hq
        · exact ⟨h1, .inl ⟨x, (hres x).mpr (.inl hx), h2⟩⟩
        · refine ⟨h1, ?_⟩
          by_cases ei : i' = pre.length
          · subst ei
            rw [hwi] at hw'
            cases hw'
            exact .inl ⟨(r, g), (hres _).mpr (.inr rfl), h3⟩
          · exact .inr ⟨i', job', r', by rw [← hj']; exact jput_ne _ _ ei, hws ei hw', h2, h3, h4⟩
      · intro k k' j j' h h' he
        exact I.inj _ _ _ _ (new h).2 (new h').2 he
      · intro k j h
        obtain ⟨hk, h⟩ := new h
        obtain ⟨r0, hw0, h0⟩ := I.job k j h
        exact ⟨r0, hws hk hw0, h0⟩
      · intro t' ht'
        by_cases et : t' = job.ctx
        · rw [et]; exact ⟨c, ht⟩
        · refine I.free t' fun k j hk => ?_
          by_cases ek : k = pre.length
          · subst ek; rw [hj] at hk; cases hk; exact Ne.symm et
          · exact ht' k j (by rw [← hk]; exact jput_ne _ _ ek)
      · intro x hx
        rcases (hres x).mp hx with hx | rfl
        · exact I.res x hx
        · exact ⟨_, hg, hall⟩

/-- The answers are those without a cache, except for the model of repeated user agents; only these can cause a panic. -/
theorem batch_inv {s : Batch} (hr : Batch.Reach T H lower rows threads s)
    (hH : ∀ u u', InRows rows u → InRows rows u' → H u = H u' → u = u') (hok : ∀ r ∈ rows, ∀ g ∈ asked, uncached T H g { ua := r.ua } ≠ none)
    (hsize : ∀ r ∈ rows, 10 * growth T r.ua + modelBound T r.ua < 2 ^ 32) : BatchInv (GoodAns T H rows) (∃ r ∈ rows, ¬ Once rows r.ua) rows s := by
  refine batch_inv_gen hr fun {s} hr I {i job r gs g gs' c x} hj hw hg hs ht => ?_
  have hans := answer_good hr I hH hok hsize hj hw hg hs ht
  have hrow := work_mem (cinv (batch_cli hr)) hw
  obtain ⟨y, hy⟩ := Option.ne_none_iff_exists'.mp (hok r hrow g (by rw [hg]; simp))
  rw [hy] at hans
  constructor
  · rintro a rfl hgood
    have := hans hgood
    simp only [Option.map_some, Option.some.injEq] at this
    rw [hy, this]
  · rintro rfl
    exact ⟨r, hrow, fun honce => by have := hans (.inr honce); cases this⟩

end
end Verif.Cli

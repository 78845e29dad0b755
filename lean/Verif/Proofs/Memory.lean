import Verif.Proofs.Alias
/-
The arrays of a context hold what the slices of `Model/Ctx` say, and which strings survive which writes.
-/
namespace Verif
variable {T : Tables} {H : Bytes → UInt64} {G : CapPolicy}

/-- What `append(a[:n], s...)` does to the arrays. -/
structure Appended (A A' : List Bytes) (id id' n : Nat) (s : Bytes) : Prop where
  lt : id' < A'.length
  le : A.length ≤ A'.length
  new : ∃ z, A'.getD id' [] = (A.getD id []).take n ++ s ++ z
  which : id' = id ∨ A.length ≤ id'
  other : ∀ i, i < A.length → i ≠ id → A'.getD i [] = A.getD i []
  low : (A'.getD id []).take n = (A.getD id []).take n

theorem appended (G : CapPolicy) {A : List Bytes} {id n : Nat} (s : Bytes) (hid : id < A.length) (hn : n ≤ (A.getD id []).length) :
    Appended A (appendAt G A id n s).1 id (appendAt G A id n s).2 n s := by
  unfold appendAt
  dsimp only
  split
  · rename_i h
    refine ⟨by simpa using hid, by simp, ⟨(A.getD id []).drop (n + s.length), ?_⟩, .inl rfl, fun i hi hne => ?_, ?_⟩
    · simp [List.getD_eq_getElem?_getD, hid]
    · simp [List.getD_eq_getElem?_getD, Ne.symm hne]
    · rw [show (A.set id ((A.getD id []).take n ++ s ++ (A.getD id []).drop (n + s.length))).getD id [] =
        (A.getD id []).take n ++ s ++ (A.getD id []).drop (n + s.length) by simp [List.getD_eq_getElem?_getD, hid]]
      rw [List.append_assoc, List.take_append_of_le_length (by rw [List.length_take]; omega), List.take_take, Nat.min_self]
  · refine ⟨by simp, by simp, ⟨List.replicate (G (A.getD id []).length ((A.getD id []).take n ++ s).length - ((A.getD id []).take n ++ s).length) 0, ?_⟩, .inr (Nat.le_refl _), fun i hi hne => ?_, ?_⟩
    · simp only [List.getD_eq_getElem?_getD, List.getElem?_concat_length, Option.getD_some]
    · simp [List.getD_eq_getElem?_getD, List.getElem?_append_left hi]
    · simp [List.getD_eq_getElem?_getD, List.getElem?_append_left hid]

/-- The arrays agree with the context. -/
structure MemInv (c : Ctx) (m : Mem) : Prop where
  ne : m.src ≠ m.buf
  srcLt : m.src < m.arrays.length
  bufLt : m.buf < m.arrays.length
  src : ∃ z, m.arrays.getD m.src [] = c.src ++ z
  buf : ∃ z, m.arrays.getD m.buf [] = c.buf ++ z
  len : m.bufLen = c.buf.length
  seen : m.seen = c.writes.length

theorem memInv_init : MemInv newCtx .init := ⟨by decide, by decide, by decide, ⟨_, rfl⟩, ⟨_, rfl⟩, rfl, rfl⟩

/-- The string still reads as when it was obtained; if it is in the array of `c.buf`, then `k` and it is within `c.buf`. -/
def Intact (k : Prop) (m : Mem) (h : Held) : Prop :=
  match h.str with
  | .static t => t = h.bytes
  | .heap id lo n => id < m.arrays.length ∧ m.read h.str = h.bytes ∧ (id = m.buf → k ∧ lo + n ≤ m.bufLen)

theorem Intact.mono {k k' : Prop} (hk : k → k') {m : Mem} {h : Held} (hh : Intact k m h) : Intact k' m h := by
  unfold Intact at *
  split at hh
  · exact hh
  · exact ⟨hh.1, hh.2.1, fun e => ⟨hk (hh.2.2 e).1, (hh.2.2 e).2⟩⟩

theorem Intact.read {k : Prop} {m : Mem} {h : Held} (hh : Intact k m h) : m.read h.str = h.bytes := by
  unfold Intact at hh
  split at hh
  · rename_i t e; rw [e]; exact hh
  · exact hh.2.1

theorem take_drop_of_take {a b : Bytes} {n lo k : Nat} (h : a.take n = b.take n) (hk : lo + k ≤ n) : (a.drop lo).take k = (b.drop lo).take k := by
  have e : ∀ x : Bytes, (x.drop lo).take k = ((x.take n).drop lo).take k := by
    intro x
    rw [List.drop_take, List.take_take, Nat.min_eq_left (by omega)]
  rw [e a, e b, h]

/-- A memory without the context, as far as writes to `c.buf` are concerned. -/
structure BufOk (b : Bytes) (m : Mem) : Prop where
  bufLt : m.buf < m.arrays.length
  buf : ∃ z, m.arrays.getD m.buf [] = b ++ z
  len : m.bufLen = b.length

/-- One write. -/
theorem write_ok {b : Bytes} {m : Mem} (hb : BufOk b m) (o : BufOp) :
    BufOk (o.run b) (m.write G o) ∧
      (∀ i, i < m.arrays.length → i ≠ m.buf → (m.write G o).arrays.getD i [] = m.arrays.getD i []) ∧
      m.arrays.length ≤ (m.write G o).arrays.length ∧
      ((m.write G o).buf = m.buf ∨ m.arrays.length ≤ (m.write G o).buf) ∧ (m.write G o).src = m.src ∧
      (o.isAppend → m.bufLen ≤ (m.write G o).bufLen ∧
        ((m.write G o).arrays.getD m.buf []).take m.bufLen = (m.arrays.getD m.buf []).take m.bufLen) := by
  obtain ⟨z, hz⟩ := hb.buf
  cases o with
  | append s =>
    have h := appended G s hb.bufLt (n := m.bufLen) (by rw [hz, hb.len, List.length_append]; omega)
    refine ⟨⟨h.lt, ?_, ?_⟩, h.other, h.le, h.which, rfl, fun _ => ⟨by simp [Mem.write], h.low⟩⟩
    · obtain ⟨y, hy⟩ := h.new
      refine ⟨y, ?_⟩
      show (appendAt G m.arrays m.buf m.bufLen s).1.getD (appendAt G m.arrays m.buf m.bufLen s).2 [] = _
      rw [hy, hz, hb.len, List.take_left]
      rfl
    · simp [Mem.write, BufOp.run, hb.len]
  | load s =>
    have h := appended G s hb.bufLt (n := 0) (by omega)
    refine ⟨⟨h.lt, ?_, rfl⟩, h.other, h.le, h.which, rfl, fun h => h.elim⟩
    obtain ⟨y, hy⟩ := h.new
    refine ⟨y, ?_⟩
    show (appendAt G m.arrays m.buf 0 s).1.getD (appendAt G m.arrays m.buf 0 s).2 [] = _
    rw [hy, List.take_zero]
    rfl

theorem intact_write {k : Prop} {b : Bytes} {m : Mem} (hb : BufOk b m) (o : BufOp) (ho : o.isAppend ∨ ¬ k) {h : Held} (hh : Intact k m h) :
    Intact k (m.write G o) h := by
  obtain ⟨-, h1, h2, h3, -, h4⟩ := write_ok (G := G) hb o
  obtain ⟨g, str, bytes, q⟩ := h
  cases str with
  | static t => exact hh
  | heap id lo n =>
    obtain ⟨a1, a2, a3⟩ := hh
    refine ⟨by omega, ?_, fun e => ?_⟩
    · by_cases e : id = m.buf
      · obtain ⟨e1, e2⟩ := a3 e
        obtain ⟨-, h5⟩ := h4 (ho.resolve_right fun h => h e1)
        subst e
        exact (take_drop_of_take h5 e2).trans a2
      · simp only [Mem.read] at a2 ⊢
        rw [h1 id a1 e]; exact a2
    · have e' : id = m.buf := by
        rcases h3 with h3 | h3
        · rw [e, h3]
        · omega
      obtain ⟨e1, e2⟩ := a3 e'
      have := (h4 (ho.resolve_right fun h => h e1)).1
      exact ⟨e1, by omega⟩

theorem writes_ok {k : Prop} {c : Ctx} : ∀ (w : List BufOp) {b : Bytes} {m : Mem}, BufOk b m → m.src < m.arrays.length → m.src ≠ m.buf →
    (∃ z, m.arrays.getD m.src [] = c.src ++ z) →
    let m' := w.foldl (Mem.write G) m
    BufOk (w.foldl BufOp.run b) m' ∧ m'.src < m'.arrays.length ∧ m'.src ≠ m'.buf ∧ (∃ z, m'.arrays.getD m'.src [] = c.src ++ z) ∧
      ((∀ o ∈ w, o.isAppend) ∨ ¬ k → ∀ h, Intact k m h → Intact k m' h)
  | [], b, m, hb, h1, h2, h3 => ⟨hb, h1, h2, h3, fun _ _ h => h⟩
  | o :: w, b, m, hb, h1, h2, h3 => by
    obtain ⟨a1, a2, a3, a4, a5, -⟩ := write_ok (G := G) hb o
    have := writes_ok (k := k) (c := c) w a1 (by omega) (by rw [a5]; rcases a4 with a4 | a4 <;> omega) (by rw [a5, a2 _ h1 h2]; exact h3)
    obtain ⟨b1, b2, b3, b4, b5⟩ := this
    refine ⟨b1, b2, b3, b4, fun hw h hh => b5 ?_ h (intact_write hb o ?_ hh)⟩
    · exact hw.imp_left fun hw o ho => hw o (List.mem_cons_of_mem _ ho)
    · exact hw.imp_left fun hw => hw o (by simp)

theorem MemInv.bufOk {c : Ctx} {m : Mem} (h : MemInv c m) : BufOk c.buf m := ⟨h.bufLt, h.buf, h.len⟩

/-- `Mem.after` of an operation other than SetUserAgent and Reset. -/
def Mem.catchUp (G : CapPolicy) (m : Mem) (c : Ctx) : Mem := { (c.writes.drop m.seen).foldl (Mem.write G) m with seen := c.writes.length }

theorem after_eq {m : Mem} {op : Op} (h : op.ends = false) (c : Ctx) : m.after G op c = m.catchUp G c := by
  cases op <;> first | rfl | cases h

theorem memInv_evol {L : Prop} {c c' : Ctx} {m : Mem} (h : MemInv c m) (ev : Evol L c c') :
    MemInv c' (m.catchUp G c') ∧ (¬ L → ∀ x, Intact True m x → Intact True (m.catchUp G c') x) ∧
      ∀ x, Intact False m x → Intact False (m.catchUp G c') x := by
  obtain ⟨w, h1, h2, h3⟩ := ev.ex
  have hd : c'.writes.drop m.seen = w := by rw [h.seen, h1, List.drop_left]
  obtain ⟨b1, b2, b3, b4, b5⟩ := writes_ok (G := G) (k := True) (c := c) w h.bufOk h.srcLt h.ne h.src
  obtain ⟨-, -, -, -, b6⟩ := writes_ok (G := G) (k := False) (c := c) w h.bufOk h.srcLt h.ne h.src
  unfold Mem.catchUp
  rw [hd]
  refine ⟨⟨b3, b2, b1.bufLt, ?_, ?_, ?_, rfl⟩, fun hL x hx => b5 (.inl (h3.resolve_left hL)) x hx, fun x hx => b6 (.inr id) x hx⟩
  · rw [ev.src]; exact b4
  · rw [h2]; exact b1.buf
  · rw [h2]; exact b1.len

theorem memInv_setUserAgent {c : Ctx} {m : Mem} (h : MemInv c m) (ua : Bytes) :
    MemInv (c.setUserAgent ua) (m.after G (.setUserAgent ua) (c.setUserAgent ua)) := by
  have ha := appended G ua h.srcLt (n := 0) (by omega)
  have := h.bufLt
  refine ⟨?_, ha.lt, ?_, ?_, ⟨_, rfl⟩, rfl, rfl⟩
  · show (appendAt G m.arrays m.src 0 ua).2 ≠ m.buf
    rcases ha.which with e | e
    · rw [e]; exact h.ne
    · omega
  · exact Nat.lt_of_lt_of_le h.bufLt ha.le
  · obtain ⟨z, hz⟩ := ha.new
    rw [List.take_zero, List.nil_append] at hz
    exact ⟨z, hz⟩

theorem memInv_reset {c : Ctx} {m : Mem} (h : MemInv c m) : MemInv c.reset (m.after G .reset c.reset) :=
  ⟨h.ne, h.srcLt, h.bufLt, ⟨_, rfl⟩, ⟨_, rfl⟩, rfl, rfl⟩

/-- A window that fits reads as its text. -/
theorem intact_window {c : Ctx} {m : Mem} (h : MemInv c m) {l : Loc} (hl : l.Fits c) (g : Getter) (q : Bool) :
    Intact True m ⟨g, l.str m, l.text c, q⟩ ∧ (l.NotBuf → Intact False m ⟨g, l.str m, l.text c, q⟩) := by
  cases l with
  | static t => exact ⟨rfl, fun _ => rfl⟩
  | src lo n =>
    obtain ⟨z, hz⟩ := h.src
    have key : ((m.arrays.getD m.src []).drop lo).take n = (c.src.drop lo).take n := by
      rw [hz]
      refine take_drop_of_take (n := c.src.length) ?_ hl
      rw [List.take_left, List.take_length]
    exact ⟨⟨h.srcLt, key, fun e => absurd e h.ne⟩, fun _ => ⟨h.srcLt, key, fun e => absurd e h.ne⟩⟩
  | buf lo n =>
    obtain ⟨z, hz⟩ := h.buf
    refine ⟨⟨h.bufLt, ?_, fun _ => ⟨trivial, by rw [h.len]; exact hl⟩⟩, fun hn => hn.elim⟩
    show ((m.arrays.getD m.buf []).drop lo).take n = (c.buf.drop lo).take n
    rw [hz]
    refine take_drop_of_take (n := c.buf.length) ?_ hl
    rw [List.take_left, List.take_length]

/-! ### All schedules -/

/-- What a call guarantees. -/
def Post (L : Prop) (op : Op) (c : Ctx) (r : Ctx × Option (Option LAns)) : Prop :=
  match op with
  | .setUserAgent ua => r.1 = c.setUserAgent ua
  | .reset => r.1 = c.reset
  | .get g => Evol L c r.1 ∧ ∀ a, r.2 = some (some a) → a.Sound g r.1
  | _ => Evol L c r.1

theorem post_op {L : Prop} (op : Op) (c : Ctx) : (op.progL T H c).Safe (Answers L) anyEntry (Post L op c) := by
  cases op with
  | setUserAgent ua => exact (rfl : c.setUserAgent ua = _)
  | setRequestedWith x =>
    refine (?_ : Evol L c (c.setRequestedWith H x))
    unfold Ctx.setRequestedWith
    split
    · exact .same rfl rfl rfl
    · exact .refl _
  | filterClientType m => exact (.same rfl rfl rfl : Evol L c (c.filterClientType m))
  | filterDeviceType m => exact (.same rfl rfl rfl : Evol L c (c.filterDeviceType m))
  | reset => exact (rfl : c.reset = _)
  | get g =>
    refine (sound_getter g c).bind ?_
    rintro ⟨c', _ | a⟩ ⟨h1, h2⟩
    · exact ⟨h1, by simp⟩
    · exact ⟨h1, fun a' ha => by cases ha; exact h2 a rfl⟩

/-- The invariant of one context. -/
structure ThInv (th : LThread) (m : Mem) (held : List Held) : Prop where
  idle : ∀ c, th = .idle c → MemInv c m
  busy : ∀ op p, th = .busy op p → ∃ c, MemInv c m ∧ p.Safe (Answers True) anyEntry (Post True op c) ∧
    ((∃ h ∈ held, h.quiet = true) → p.Safe (Answers False) anyEntry (Post False op c)) ∧ (op.ends = true → held = [])
  held : ∀ h ∈ held, (¬ h.g.inBuf → Intact False m h) ∧ (h.quiet = true → Intact True m h)

theorem upd_same {α : Type} (f : Nat → α) (t : Nat) (a : α) : upd f t a t = a := by simp [upd]
theorem upd_ne {α : Type} (f : Nat → α) {t i : Nat} (a : α) (h : i ≠ t) : upd f t a i = f i := by simp [upd, h]

theorem mem_disturb {r : GetResp} {l : List Held} {h : Held} (hh : h ∈ disturb r l) :
    h ∈ l ∨ (h.quiet = false ∧ ∃ h' ∈ l, h.g = h'.g ∧ h.str = h'.str ∧ h.bytes = h'.bytes) := by
  cases r with
  | miss => exact .inl hh
  | nilEntry => exact .inl hh
  | hit e =>
    obtain ⟨h', h1, rfl⟩ := List.mem_map.mp hh
    exact .inr ⟨rfl, h', h1, rfl, rfl, rfl⟩

theorem Intact.congr {k : Prop} {m : Mem} {h h' : Held} (h1 : h.str = h'.str) (h2 : h.bytes = h'.bytes) (hi : Intact k m h') : Intact k m h := by
  unfold Intact at *
  rw [h1, h2]
  exact hi

theorem thInv_get {op : Op} {k : Bytes} {f : GetResp → Prog (Ctx × Option (Option LAns))} {m : Mem} {held : List Held}
    (h : ThInv (.busy op (.get k f)) m held) (r : GetResp) : ThInv (.busy op (f r)) m (disturb r held) := by
  obtain ⟨c, h1, h2, h3, h4⟩ := h.busy _ _ rfl
  refine ⟨by simp, ?_, ?_⟩
  · rintro _ _ ⟨⟩
    refine ⟨c, h1, h2 r (.inl trivial), ?_, ?_⟩
    · rintro ⟨x, hx, hq⟩
      have hn : ∀ e, r ≠ .hit e := by
        rintro e rfl
        obtain ⟨y, -, rfl⟩ := List.mem_map.mp hx
        exact absurd hq (by simp)
      refine h3 ⟨x, ?_, hq⟩ r (.inr hn)
      rcases mem_disturb hx with hx | ⟨hx, -⟩
      · exact hx
      · rw [hx] at hq; cases hq
    · intro he
      rw [h4 he]
      cases r <;> rfl
  · intro x hx
    rcases mem_disturb hx with hx | ⟨hq, x', hx', e1, e2, e3⟩
    · exact h.held x hx
    · refine ⟨fun hg => ?_, fun hq' => by rw [hq] at hq'; cases hq'⟩
      rw [e1] at hg
      exact ((h.held x' hx').1 hg).congr e2 e3

theorem thInv_ret {op : Op} {c : Ctx} {r : Option (Option LAns)} {m : Mem} {held : List Held}
    (h : ThInv (.busy op (.ret (c, r))) m held) : ThInv (.idle c) (m.after G op c) (held ++ gained (m.after G op c) c op r) := by
  obtain ⟨c0, h1, h2, h3, h4⟩ := h.busy _ _ rfl
  have h2 : Post True op c0 (c, r) := h2
  have fin : op.ends = false → Evol True c0 c → ((∃ h ∈ held, h.quiet = true) → Evol False c0 c) → (∀ g a, op = .get g → r = some (some a) → a.Sound g c) →
      ThInv (.idle c) (m.after G op c) (held ++ gained (m.after G op c) c op r) := by
    intro he e1 e2 hs
    rw [after_eq he]
    obtain ⟨i1, -, i2⟩ := memInv_evol (G := G) h1 e1
    refine ⟨?_, by simp, ?_⟩
    · rintro _ ⟨⟩; exact i1
    · intro x hx
      rcases List.mem_append.mp hx with hx | hx
      · refine ⟨fun hg => i2 x ((h.held x hx).1 hg), fun hq => ?_⟩
        obtain ⟨-, i3, -⟩ := memInv_evol (G := G) h1 (e2 ⟨x, hx, hq⟩)
        exact i3 id x ((h.held x hx).2 hq)
      · cases op with
        | get g =>
          rcases r with _ | _ | l | ⟨v, _ | l⟩ | a
          · cases hx
          · cases hx
          · rw [gained, List.mem_singleton] at hx
            subst hx
            obtain ⟨s1, s2⟩ : Loc.Fits c l ∧ (¬ g.inBuf → l.NotBuf) := hs g _ rfl rfl
            have := intact_window i1 s1 g true
            exact ⟨fun hg => this.2 (s2 hg), fun _ => this.1⟩
          · cases hx
          · rw [gained, List.mem_singleton] at hx
            subst hx
            obtain ⟨s1, s2⟩ : Loc.Fits c l ∧ (¬ g.inBuf → l.NotBuf) := hs g _ rfl rfl l rfl
            have := intact_window i1 s1 g true
            exact ⟨fun hg => this.2 (s2 hg), fun _ => this.1⟩
          · cases hx
        | _ => cases hx
  cases op with
  | setUserAgent ua =>
    have h2 : c = c0.setUserAgent ua := h2
    subst h2
    rw [h4 rfl]
    exact ⟨by rintro _ ⟨⟩; exact memInv_setUserAgent h1 ua, by simp, nofun⟩
  | reset =>
    have h2 : c = c0.reset := h2
    subst h2
    rw [h4 rfl]
    exact ⟨by rintro _ ⟨⟩; exact memInv_reset h1, by simp, nofun⟩
  | get g => exact fin rfl h2.1 (fun hq => (h3 hq).1) fun g' a e hr => by cases e; exact h2.2 a hr
  | setRequestedWith x => exact fin rfl h2 (fun hq => h3 hq) nofun
  | filterClientType x => exact fin rfl h2 (fun hq => h3 hq) nofun
  | filterDeviceType x => exact fin rfl h2 (fun hq => h3 hq) nofun

theorem msys_inv {ok} {s : MSys} (hr : MSys.Reach T H G ok s) : ∀ t, ThInv (s.threads t) (s.mem t) (s.held t) := by
  induction hr with
  | init => exact fun t => ⟨by rintro _ ⟨⟩; exact memInv_init, by rintro _ _ ⟨⟩, nofun⟩
  | @step s s' hr st ih =>
    intro i
    have hi := ih i
    cases st with
    | @call t c op h =>
      by_cases e : i = t
      · subst e
        rw [h] at hi
        have hc := hi.idle c rfl
        dsimp only
        rw [upd_same]
        refine ⟨by simp, ?_, ?_⟩
        · rintro _ _ ⟨⟩
          refine ⟨c, hc, post_op op c, fun _ => post_op op c, fun he => ?_⟩
          rw [he, if_pos rfl, upd_same]
        · split
          · rw [upd_same]; exact nofun
          · exact hi.held
      · dsimp only
        rw [upd_ne _ _ e]
        have : (if op.ends = true then upd s.held t [] else s.held) i = s.held i := by
          split
          · exact upd_ne _ _ e
          · rfl
        rw [this]; exact hi
    | @get t op k f h r hr =>
      by_cases e : i = t
      · subst e
        rw [h] at hi
        dsimp only
        rw [upd_same, upd_same]
        exact thInv_get hi r
      · dsimp only
        rw [upd_ne _ _ e, upd_ne _ _ e]; exact hi
    | @set t op k e p h =>
      by_cases e : i = t
      · subst e
        rw [h] at hi
        dsimp only
        rw [upd_same]
        obtain ⟨c, h1, h2, h3, h4⟩ := hi.busy _ _ rfl
        exact ⟨by simp, by rintro _ _ ⟨⟩; exact ⟨c, h1, h2.2, fun hq => (h3 hq).2, h4⟩, hi.held⟩
      · dsimp only
        rw [upd_ne _ _ e]; exact hi
    | @ret t op c r h =>
      by_cases e : i = t
      · subst e
        rw [h] at hi
        dsimp only
        rw [upd_same, upd_same, upd_same]
        exact thInv_ret hi
      · dsimp only
        rw [upd_ne _ _ e, upd_ne _ _ e, upd_ne _ _ e]; exact hi

end Verif

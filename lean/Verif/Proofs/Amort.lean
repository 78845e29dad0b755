import Verif.Spec.Session
import Verif.Proofs.Sole
/-
Accounting of cache accesses: each is paid for by a part of the detection that becomes known.
-/
namespace Verif

/-- Parts of `S` that are detected. -/
def cnt (S : List Nat) (c : Ctx) : Nat := S.countP c.check

/-- The parts a response tells about. -/
def GetResp.parts : GetResp → Nat → Bool
  | .hit e, n => e.bits.check n
  | _, _ => false

/-- Of the parts of the detection: `A` is within `B` (`m`), or `B` within `A`. -/
def Within' (m : Bool) (A B : Nat → Bool) : Prop := ∀ n ∈ detFlags, if m = true then A n = true → B n = true else B n = true → A n = true

/-- The response knows all of `K` (`m`), or nothing else. -/
def GetResp.Knows (m : Bool) (K : Nat → Bool) (r : GetResp) : Prop := r ≠ .nilEntry ∧ ∀ e, r = .hit e → Within' m K e.bits.check

/-- Running `p` after `a` Gets and `b` Sets that told about `K`, with answers that know what was told before, ends in `Q`. -/
def Prog.Led (m : Bool) {α : Type} (Q : (Nat → Bool) → Nat → Nat → α → Prop) : (Nat → Bool) → Nat → Nat → Prog α → Prop
  | K, a, b, .ret r => Q K a b r
  | K, a, b, .get _ f => ∀ r, r.Knows m K → Prog.Led m Q (fun n => K n || r.parts n) (a + 1) b (f r)
  | K, a, b, .set _ e p => Prog.Led m Q (fun n => K n || e.bits.check n) a (b + 1) p

theorem Prog.Led.bind {m : Bool} {α β : Type} {Q : (Nat → Bool) → Nat → Nat → α → Prop} {R : (Nat → Bool) → Nat → Nat → β → Prop} {f : α → Prog β}
    (hf : ∀ K a b r, Q K a b r → Prog.Led m R K a b (f r)) {p : Prog α} : ∀ {K : Nat → Bool} {a b : Nat}, p.Led m Q K a b → (p.bind f).Led m R K a b := by
  induction p with
  | ret r => intro K a b h; exact hf _ _ _ _ h
  | get k g ih => intro K a b h r hr; exact ih r (h r hr)
  | set k e p ih => intro K a b h; exact ih (K := fun n => K n || e.bits.check n) (a := a) (b := b + 1) h

theorem Prog.Led.mono {m : Bool} {α : Type} {Q R : (Nat → Bool) → Nat → Nat → α → Prop} (hf : ∀ K a b r, Q K a b r → R K a b r) {p : Prog α} :
    ∀ {K : Nat → Bool} {a b : Nat}, p.Led m Q K a b → p.Led m R K a b := by
  induction p with
  | ret r => intro K a b h; exact hf _ _ _ _ h
  | get k g ih => intro K a b h r hr; exact ih r (h r hr)
  | set k e p ih => intro K a b h; exact ih (K := fun n => K n || e.bits.check n) (a := a) (b := b + 1) h

/-- Context `c'` knows more than `c`, nothing but (`m`) or all of what was told, and the accesses are paid for by the parts `S`. -/
structure Paid (m : Bool) (S : List Nat) (c : Ctx) (a b : Nat) (K : Nat → Bool) (a' b' : Nat) (c' : Ctx) : Prop where
  sub : Within' m c'.check K
  more : ∀ n ∈ detFlags, c.check n = true → c'.check n = true
  gets : a' + cnt S c ≤ a + cnt S c'
  sets : b' + cnt S c ≤ b + cnt S c'

theorem Paid.trans {m : Bool} {S : List Nat} {c c' c'' : Ctx} {a b a' b' a'' b'' : Nat} {K K' : Nat → Bool} (h : Paid m S c a b K a' b' c') (h' : Paid m S c' a' b' K' a'' b'' c'') :
    Paid m S c a b K' a'' b'' c'' where
  sub := h'.sub
  more n hn hc := h'.more n hn (h.more n hn hc)
  gets := by have := h.gets; have := h'.gets; omega
  sets := by have := h.sets; have := h'.sets; omega

theorem cnt_sublist {S S' : List Nat} (h : S.Sublist S') {c c' : Ctx} (hm : ∀ n ∈ S', c.check n = true → c'.check n = true) :
    cnt S c' + cnt S' c ≤ cnt S' c' + cnt S c := by
  unfold cnt
  induction h with
  | slnil => simp
  | cons x h ih =>
    have := ih fun n hn => hm n (List.mem_cons_of_mem _ hn)
    have hx := hm x (List.mem_cons_self ..)
    rw [List.countP_cons, List.countP_cons]
    cases h1 : c.check x
    · simp; omega
    · rw [hx h1]; simp; omega
  | cons_cons x h ih =>
    have := ih fun n hn => hm n (List.mem_cons_of_mem _ hn)
    rw [List.countP_cons, List.countP_cons, List.countP_cons, List.countP_cons]
    omega

theorem cnt_mono {S : List Nat} {c c' : Ctx} (hm : ∀ n ∈ S, c.check n = true → c'.check n = true) : cnt S c ≤ cnt S c' := by
  have := cnt_sublist (S := []) (S' := S) (List.nil_sublist _) hm
  simp [cnt] at this ⊢
  exact this

theorem cnt_lt {S : List Nat} {c c' : Ctx} {n : Nat} (hn : n ∈ S) (hm : ∀ n ∈ S, c.check n = true → c'.check n = true) (h : c.check n = false) (h' : c'.check n = true) :
    cnt S c + 1 ≤ cnt S c' := by
  have := cnt_sublist (S := [n]) (S' := S) (List.singleton_sublist.mpr hn) hm
  simp [cnt, h, h'] at this ⊢
  omega

/-- Methods. -/
structure M.Led (m : Bool) (S : List Nat) {α : Type} (x : M α) : Prop where
  led : ∀ c K a b, Within' m c.check K → (x c).Led m (fun K' a' b' r => Paid m S c a b K' a' b' r.1) K a b

namespace M.Led
variable {m : Bool} {α β : Type} {S : List Nat}
theorem lift {x : P α} (h : ∀ c, dets (x c).1 = dets c) (hS : ∀ n ∈ S, n ∈ detFlags) : M.Led m S (M.lift x) := ⟨fun c K a b hs => by
  obtain ⟨-, h2⟩ := dets_iff.mp (h c)
  have hc := cnt_mono (S := S) (c := c) (c' := (x c).1) fun n hn hb => by rw [h2 n (hS n hn)]; exact hb
  exact ⟨fun n hn => by have := hs n hn; rw [h2 n hn]; exact this, fun n hn hb => by rw [h2 n hn]; exact hb, by omega, by omega⟩⟩
theorem pure (a : α) : M.Led m S (Pure.pure a : M α) := ⟨fun _ _ _ _ hs => ⟨hs, fun _ _ h => h, by simp only; omega, by simp only; omega⟩⟩
theorem ofOption (o : Option α) : M.Led m S (M.ofOption o) := ⟨fun _ _ _ _ hs => ⟨hs, fun _ _ h => h, Nat.le_refl _, Nat.le_refl _⟩⟩
theorem modify {f : Ctx → Ctx} (h : ∀ c, dets (f c) = dets c) (hS : ∀ n ∈ S, n ∈ detFlags) : M.Led m S (M.modify f) := lift (x := P.modify f) h hS
theorem bind {x : M α} {f : α → M β} (hx : x.Led m S) (hf : ∀ r, (f r).Led m S) : (x >>= f).Led m S := by
  constructor
  intro c K a b hs
  rw [M.bind_apply]
  refine (hx.led c K a b hs).bind ?_
  rintro K' a' b' ⟨c', _ | r⟩ h
  · exact h
  · exact ((hf r).led c' K' a' b' h.sub).mono fun _ _ _ _ h' => h.trans h'
theorem ctx {f : Ctx → M β} (hf : ∀ c, (f c).Led m S) : (M.ctx >>= f).Led m S := ⟨fun c => (hf c).led c⟩
theorem when {p : Prop} [Decidable p] {x : M Unit} (h : x.Led m S) : (M.when p x).Led m S := by
  unfold M.when; split
  · exact h
  · exact M.Led.pure ()
theorem ite {p : Prop} [Decidable p] {x y : M α} (h : x.Led m S) (h' : y.Led m S) : (if p then x else y).Led m S := by split <;> assumption
theorem defer {d : Option α → M Unit} {x : M α} (hd : ∀ r, (d r).Led m S) (hx : x.Led m S) : (M.defer d x).Led m S := by
  constructor
  intro c K a b hs
  refine (hx.led c K a b hs).bind ?_
  intro K' a' b' r hr
  refine ((hd r.2).led r.1 K' a' b' hr.sub).bind ?_
  intro K'' a'' b'' r' hr'
  exact hr.trans hr'
theorem map {f : α → β} {x : M α} (h : x.Led m S) : (M.map f x).Led m S := h.bind fun _ => .pure _
theorem wider {S' : List Nat} {x : M α} (h : x.Led m S) (hs : S.Sublist S') (hS : ∀ n ∈ S', n ∈ detFlags) : x.Led m S' := by
  constructor
  intro c K a b hk
  refine (h.led c K a b hk).mono ?_
  intro K' a' b' r hr
  have := cnt_sublist hs (c := c) (c' := r.1) fun n hn => hr.more n (hS n hn)
  exact ⟨hr.sub, hr.more, by have := hr.gets; omega, by have := hr.sets; omega⟩
end M.Led

section
variable {T : Tables} {m : Bool}

/-- The parse methods, called when their part is not detected yet: they pay with their part, `S` pays for the body. -/
theorem led_frame {flag : Nat} (hm : flag ∈ detFlags) {S S' : List Nat} (hS' : ∀ n, n ∈ S' ↔ n = flag ∨ n ∈ S) (hc' : ∀ c, cnt S' c = cnt S c + cnt [flag] c)
    (hS : ∀ n ∈ S, n ∈ detFlags) {body : M Bool} (hb : body.Led m S) {c : Ctx} (hc : c.check flag = false) (K : Nat → Bool) (a b : Nat)
    (hs : Within' m c.check K) :
    (parseFrame flag body c).Led m (fun K' a' b' r => Paid m S' c a b K' a' b' r.1) K a b := by
  have hf : flag < 64 := by
    simp only [detFlags, List.mem_cons, List.not_mem_nil, or_false] at hm
    rcases hm with rfl | rfl | rfl <;> decide
  have hdet : ∀ n ∈ S', n ∈ detFlags := fun n hn => by
    rcases (hS' n).mp hn with rfl | h
    · exact hm
    · exact hS n h
  have hmiss : ∀ K', Within' m c.check K' →
      (M.defer (fun _ => finishParse flag) body c).Led m (fun K' a' b' r => Paid m S' c a b K' a' b' r.1) K' (a + 1) b := by
    intro K' hs'
    refine (hb.led c K' (a + 1) b hs').bind ?_
    intro K2 a2 b2 r hr
    have hup : ∀ n, r.1.check n = true → (r.1.setBit flag).check n = true := fun n hn => by rw [Ctx.check_setBit _ _ _ hf, hn]; simp
    have h2 : cnt S r.1 ≤ cnt S (r.1.setBit flag) := cnt_mono fun n _ hn => hup n hn
    have h3 : cnt [flag] c = 0 := by simp [cnt, hc]
    have h4 : cnt [flag] (r.1.setBit flag) = 1 := by simp [cnt, hf]
    refine ⟨fun n hn => ?_, fun n hn hbn => hup n (hr.more n hn hbn), ?_, ?_⟩
    · have h5 := hr.sub n hn
      show if m = true then (r.1.setBit flag).check n = true → (K2 n || (r.1.setBit flag).check n) = true
        else (K2 n || (r.1.setBit flag).check n) = true → (r.1.setBit flag).check n = true
      cases m with
      | true => simp only [if_true]; intro h; rw [h]; simp
      | false =>
        simp only [Bool.false_eq_true, if_false] at h5 ⊢
        intro h
        rcases (Bool.or_eq_true _ _).mp h with h | h
        · exact hup n (h5 h)
        · exact h
    · show a2 + cnt S' c ≤ a + cnt S' (r.1.setBit flag)
      have h1 := hr.gets
      rw [hc', hc', h3, h4]
      omega
    · show b2 + 1 + cnt S' c ≤ b + cnt S' (r.1.setBit flag)
      have h1 := hr.sets
      rw [hc', hc', h3, h4]
      omega
  unfold parseFrame
  simp only [M.ctx_bind, M.cacheGet_bind]
  intro r hr
  cases r with
  | miss => exact hmiss _ fun n hn => by have := hs n hn; simpa [GetResp.parts] using this
  | nilEntry => exact absurd rfl hr.1
  | hit e =>
    have he := hr.2 e rfl
    have hK : Within' m c.check fun n => K n || e.bits.check n := fun n hn => by
      have h1 := hs n hn
      have h2 := he n hn
      cases m with
      | true => simp only [if_true] at h1 ⊢; intro h; rw [h1 h]; rfl
      | false =>
        simp only [Bool.false_eq_true, if_false] at h1 h2 ⊢
        intro h
        rcases (Bool.or_eq_true _ _).mp h with h | h
        · exact h1 h
        · exact h1 (h2 h)
    show Prog.Led m _ _ _ _ ((if e.bits.check flag then _ else _ : M Bool) c)
    split
    · rename_i hfl
      cases m with
      | false =>
        have h1 := hs flag hm
        have h2 := he flag hm
        simp only [Bool.false_eq_true, if_false] at h1 h2
        rw [h1 (h2 hfl)] at hc
        cases hc
      | true =>
        have hmore : ∀ n ∈ detFlags, c.check n = true → (c.fromCache e).check n = true := fun n hn h => by
          have h1 := hs n hn
          have h2 := he n hn
          simp only [if_true] at h1 h2
          exact h2 (h1 h)
        have hl := cnt_lt (S := S') (c := c) (c' := c.fromCache e) ((hS' flag).mpr (.inl rfl)) (fun n hn => hmore n (hdet n hn)) hc hfl
        refine ⟨fun n hn => ?_, hmore, ?_, ?_⟩
        · simp only [if_true]
          intro hbn
          have hbn : e.bits.check n = true := hbn
          show (K n || e.bits.check n) = true
          rw [hbn]; simp
        · show a + 1 + cnt S' c ≤ a + cnt S' (c.fromCache e)
          omega
        · show b + cnt S' c ≤ b + cnt S' (c.fromCache e)
          omega
    · exact hmiss _ hK

theorem led_ensure {S : List Nat} {flag : Nat} {x : M Bool} (hx : ∀ c : Ctx, c.check flag = false → ∀ K a b, Within' m c.check K →
    (x c).Led m (fun K' a' b' r => Paid m S c a b K' a' b' r.1) K a b) : (ensure flag x).Led m S := by
  constructor
  intro c K a b hs
  unfold ensure
  rw [M.ctx_bind]
  unfold M.when
  split
  · rename_i h
    have h : c.check flag = false := by simpa using h
    rw [M.bind_apply]
    refine (hx c h K a b hs).bind ?_
    rintro K' a' b' ⟨c', _ | r⟩ hp <;> exact hp
  · exact (M.Led.pure ()).led c K a b hs

theorem led_ensureC : (ensure flagClientDetect (parseClient T)).Led m [flagClientDetect] :=
  led_ensure fun _ hc K a b hs => led_frame (S := []) (by decide) (by simp) (by intro c; simp [cnt]) (by simp) (.lift dets_detectClient (by simp)) hc K a b hs

theorem led_ensureO : (ensure flagOSDetect (parseOS T)).Led m [flagOSDetect] :=
  led_ensure fun _ hc K a b hs => led_frame (S := []) (by decide) (by simp) (by intro c; simp [cnt]) (by simp) (.lift dets_detectOS (by simp)) hc K a b hs

macro "led" : tactic => `(tactic| repeat' first
  | with_reducible assumption | with_reducible exact M.Led.pure _ | with_reducible exact M.Led.ofOption _ | exact M.Led.modify (fun c => rfl) (by decide)
  | with_reducible refine M.Led.ctx fun _ => ?_
  | with_reducible refine M.Led.bind ?_ fun _ => ?_ | with_reducible refine M.Led.when ?_ | with_reducible refine M.Led.ite ?_ ?_)

theorem led_getOS : (getOS T).Led m [flagOSDetect] := by
  have := led_ensureO (T := T) (m := m)
  unfold getOS; led

theorem led_deviceTry {b : DeviceType} {i : Nat} {d : DeviceType} {rest : M Bool} (hr : rest.Led m [flagOSDetect]) : (deviceTry T b i d rest).Led m [flagOSDetect] := by
  have hdef : ∀ r, (evalDeviceDeferred T i r).Led m [flagOSDetect] := by
    intro r
    unfold evalDeviceDeferred
    split
    · exact .pure _
    · refine .ite (.pure _) (led_getOS.bind fun _ => .ite (.modify (fun c => dets_setBit (by decide) (by decide)) (by decide)) (.pure _))
  unfold deviceTry
  refine .ctx fun _ => .ite (.bind ?_ ?_) hr
  · exact M.Led.defer hdef (.lift (dets_evalDeviceBody i d) (by decide))
  · rintro (_ | t)
    · exact hr
    · dsimp only; led

theorem led_ensureD : (ensure flagDeviceDetect (parseDevice T)).Led m [flagOSDetect, flagDeviceDetect] := by
  refine led_ensure fun c hc K a b hs => led_frame (S := [flagOSDetect]) (by decide) ?_ ?_ (by decide) ?_ hc K a b hs
  · intro n; simp only [List.mem_cons, List.not_mem_nil, or_false]; exact Or.comm
  · intro c; simp only [cnt, List.countP_cons, List.countP_nil]; omega
  · unfold detectDevice
    exact led_deviceTry <| led_deviceTry <| led_deviceTry <| led_deviceTry <| led_deviceTry <| led_deviceTry <| led_deviceTry <| led_deviceTry <|
      .lift dets_fallback (by decide)

theorem led_getter (g : Getter) : (g.prog T).Led m detFlags := by
  have hC := (led_ensureC (T := T) (m := m)).wider (S' := detFlags) (by decide) fun _ h => h
  have hD := (led_ensureD (T := T) (m := m)).wider (S' := detFlags) (by decide) fun _ h => h
  have hO := (led_ensureO (T := T) (m := m)).wider (S' := detFlags) (by decide) fun _ h => h
  have h1 : (getBrowserVersionString T).Led m detFlags := by unfold getBrowserVersionString; led
  have h2 : (getEngineVersionString T).Led m detFlags := by unfold getEngineVersionString; led
  have h3 : (getOSVersionString T).Led m detFlags := by unfold getOSVersionString; led
  cases g with
  | userAgent => refine .map ?_; unfold getUserAgent; led
  | clientType => refine .map ?_; unfold getClientType; led
  | browser => refine .map ?_; unfold getBrowser; led
  | browserVersion => refine .map ?_; unfold getBrowserVersion; led
  | browserVersionString => exact .map h1
  | engine => refine .map ?_; unfold getEngine; led
  | engineVersion => refine .map ?_; unfold getEngineVersion; led
  | engineVersionString => exact .map h2
  | deviceType => refine .map ?_; unfold getDeviceType; led
  | brand => refine .map ?_; unfold getBrand; led
  | model => refine .map ?_; unfold getModel; led
  | os => exact .map (led_getOS.wider (by decide) fun _ h => h)
  | osVersion => refine .map ?_; unfold getOSVersion; led
  | osVersionString => exact .map h3

theorem led_op {H : Bytes → UInt64} (op : Op) (h : op.Stays) : (op.prog T H).Led m detFlags := by
  cases op with
  | setUserAgent _ => cases h
  | reset => cases h
  | get g => exact .map (led_getter g)
  | setRequestedWith x =>
    refine .bind (.modify (fun c => ?_) fun _ h => h) fun _ => .pure _
    unfold Ctx.setRequestedWith
    split <;> rfl
  | filterClientType x => exact .bind (.modify (fun c => rfl) fun _ h => h) fun _ => .pure _
  | filterDeviceType x => exact .bind (.modify (fun c => rfl) fun _ h => h) fun _ => .pure _

/-! ### Traces -/

/-- What a trace tells about. -/
def told : (Nat → Bool) → List Acc → Nat → Bool
  | K, [] => K
  | K, .got r :: tr => told (fun n => K n || r.parts n) tr
  | K, .put e :: tr => told (fun n => K n || e.bits.check n) tr

/-- All answers of a trace know what was told before (`m`), or nothing else. -/
def AllKnow (m : Bool) : (Nat → Bool) → List Acc → Prop
  | _, [] => True
  | K, .got r :: tr => r.Knows m K ∧ AllKnow m (fun n => K n || r.parts n) tr
  | K, .put e :: tr => AllKnow m (fun n => K n || e.bits.check n) tr

theorem led_run {α : Type} {Q : (Nat → Bool) → Nat → Nat → α → Prop} {p : Prog α} {tr : List Acc} {x : α} (h : p.Run tr x) :
    ∀ {K : Nat → Bool} {a b : Nat}, p.Led m Q K a b → AllKnow m K tr → Q (told K tr) (a + gots tr) (b + puts tr) x := by
  induction h with
  | ret => intro K a b hl _; exact hl
  | @get k f r tr x h ih =>
    intro K a b hl hk
    have := ih (hl r hk.1) hk.2
    have e1 : gots (.got r :: tr) = gots tr + 1 := by simp [gots]
    have e2 : puts (.got r :: tr) = puts tr := by simp [puts]
    rw [e1, e2, show a + (gots tr + 1) = a + 1 + gots tr by omega]
    exact this
  | @set k e p tr x h ih =>
    intro K a b hl hk
    have := ih (K := fun n => K n || e.bits.check n) (a := a) (b := b + 1) hl hk
    have e1 : gots (.put e :: tr) = gots tr := by simp [gots]
    have e2 : puts (.put e :: tr) = puts tr + 1 := by simp [puts]
    rw [e1, e2, show b + (puts tr + 1) = b + 1 + puts tr by omega]
    exact this

theorem allKnow_append : ∀ {tr tr' : List Acc} {K : Nat → Bool}, AllKnow m K (tr ++ tr') → AllKnow m K tr ∧ AllKnow m (told K tr) tr'
  | [], _, _, h => ⟨trivial, h⟩
  | .got _ :: _, _, _, h => ⟨⟨h.1, (allKnow_append h.2).1⟩, (allKnow_append h.2).2⟩
  | .put e :: tr, tr', K, h => allKnow_append (tr := tr) (tr' := tr') (K := fun n => K n || e.bits.check n) h

theorem led_all {H : Bytes → UInt64} {c c' : Ctx} {ops : List Op} {tr : List Acc} (h : AskedAll T H c ops tr c') : (∀ op ∈ ops, op.Stays) → ∀ {K : Nat → Bool},
    Within' m c.check K → AllKnow m K tr → gots tr + cnt detFlags c ≤ cnt detFlags c' ∧ puts tr + cnt detFlags c ≤ cnt detFlags c' := by
  induction h with
  | nil => intro _ K _ _; simp [gots, puts]
  | @cons c c' _ op _ _ tr tr' hrun _ ih =>
    intro hst K hk hall
    obtain ⟨h1, h2⟩ := allKnow_append hall
    have hp := led_run hrun ((led_op (T := T) (H := H) op (hst op (by simp))).led c K 0 0 hk) h1
    have h3 := ih (fun o ho => hst o (by simp [ho])) hp.sub h2
    have e1 : gots (tr ++ tr') = gots tr + gots tr' := List.countP_append
    have e2 : puts (tr ++ tr') = puts tr + puts tr' := List.countP_append
    have h4 : 0 + gots tr + cnt detFlags c ≤ 0 + cnt detFlags c' := hp.gets
    have h5 : 0 + puts tr + cnt detFlags c ≤ 0 + cnt detFlags c' := hp.sets
    omega

theorem mem_detFlags {n : Nat} : n ∈ detFlags ↔ 1 ≤ n ∧ n ≤ 3 := by
  simp only [detFlags, flagClientDetect, flagOSDetect, flagDeviceDetect, List.mem_cons, List.not_mem_nil, or_false]
  omega

theorem growing_know (tr : List Acc) : ∀ (pre : List Acc), Growing (pre ++ tr) → ∀ {K : Nat → Bool},
    (∀ n ∈ detFlags, K n = true → ∃ x ∈ pre, ∃ e, x.entry = some e ∧ e.bits.check n = true) → AllKnow true K tr := by
  induction tr with
  | nil => intros; trivial
  | cons x tr ih =>
    intro pre hg K hK
    have next : ∀ {K' : Nat → Bool}, (∀ n ∈ detFlags, K' n = true → K n = true ∨ ∃ e, x.entry = some e ∧ e.bits.check n = true) → AllKnow true K' tr := by
      intro K' h'
      refine ih (pre ++ [x]) (by rw [List.append_assoc]; exact hg) ?_
      intro n hn hk
      rcases h' n hn hk with h | ⟨e, h1, h2⟩
      · obtain ⟨y, hy, e, h1, h2⟩ := hK n hn h
        exact ⟨y, by simp [hy], e, h1, h2⟩
      · exact ⟨x, by simp, e, h1, h2⟩
    cases x with
    | got r =>
      refine ⟨⟨?_, ?_⟩, next ?_⟩
      · rintro rfl; exact hg.1 (by simp)
      · rintro e rfl n hn
        simp only [if_true]
        intro hk
        obtain ⟨y, hy, e', h1, h2⟩ := hK n hn hk
        obtain ⟨h3, h4⟩ := mem_detFlags.mp hn
        exact hg.2 pre tr e rfl y hy e' h1 n h3 h4 h2
      · intro n hn h
        rcases Bool.or_eq_true _ _ |>.mp h with h | h
        · exact .inl h
        · cases r with
          | hit e => exact .inr ⟨e, rfl, h⟩
          | miss => cases h
          | nilEntry => cases h
    | put e =>
      refine next ?_
      intro n hn h
      rcases Bool.or_eq_true _ _ |>.mp h with h | h
      · exact .inl h
      · exact .inr ⟨e, rfl, h⟩

theorem own_know (tr : List Acc) : ∀ (pre : List Acc), OwnOnly (pre ++ tr) → ∀ {K : Nat → Bool},
    (∀ e, Acc.put e ∈ pre → ∀ n, e.bits.check n = true → K n = true) → AllKnow false K tr := by
  induction tr with
  | nil => intros; trivial
  | cons x tr ih =>
    intro pre hg K hK
    have hg' : OwnOnly ((pre ++ [x]) ++ tr) := by rw [List.append_assoc]; exact hg
    cases x with
    | got r =>
      refine ⟨⟨?_, ?_⟩, ih (pre ++ [.got r]) hg' ?_⟩
      · rintro rfl; exact hg.1 (by simp)
      · rintro e rfl n hn
        simp only [Bool.false_eq_true, if_false]
        intro h
        obtain ⟨e', h1, h2⟩ := hg.2 pre tr e rfl
        exact hK e' h1 n (by rw [← h2]; exact h)
      · intro e he n h
        have he : Acc.put e ∈ pre := by simpa using he
        show (K n || _) = true
        rw [hK e he n h]; rfl
    | put e =>
      refine ih (pre ++ [.put e]) hg' (K := fun n => K n || e.bits.check n) ?_
      intro e' he n h
      rcases List.mem_append.mp he with he | he
      · rw [hK e' he n h]; rfl
      · simp only [List.mem_singleton, Acc.put.injEq] at he
        subst he
        rw [h]; simp

end
end Verif

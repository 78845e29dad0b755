import Verif.Proofs.Types
import Verif.Proofs.Local
/-
A context never takes anything from entries it stored itself: it looks entries up only for the parts it has not detected yet, and an entry it
stored has only parts it had detected. So a context that alone works on a user agent behaves as if there were no cache.
-/
namespace Verif

/-- The three parts of detection. -/
def detFlags : List Nat := [flagClientDetect, flagOSDetect, flagDeviceDetect]

/-- The entry has only parts in `B`. -/
def Below (B : Nat → Bool) (e : CacheEntry) : Prop := ∀ n ∈ detFlags, e.bits.check n = true → B n = true

/-- A program that touches only entries of user agent `u`, is not affected by hits on entries with parts in `B` or stored by itself, and ends with
at least these parts detected. -/
def Prog.Own {β : Type} (u : Bytes) : (Nat → Bool) → Prog (Ctx × β) → Prop
  | B, .ret r => r.1.src = u ∧ ∀ n ∈ detFlags, B n = true → r.1.check n = true
  | B, .get k f => k = u ∧ (∀ e, Below B e → f (.hit e) = f .miss) ∧ Prog.Own u B (f .miss)
  | B, .set k e p => k = u ∧ Prog.Own u (fun n => B n || e.bits.check n) p

theorem Below.mono {B B' : Nat → Bool} {e : CacheEntry} (h : Below B e) (hB : ∀ n ∈ detFlags, B n = true → B' n = true) : Below B' e :=
  fun n hn he => hB n hn (h n hn he)

theorem Prog.Own.mono {β : Type} {u : Bytes} : ∀ {p : Prog (Ctx × β)} {B B' : Nat → Bool}, (∀ n ∈ detFlags, B' n = true → B n = true) →
    Prog.Own u B p → Prog.Own u B' p
  | .ret r, _, _, hB, h => ⟨h.1, fun n hn hb => h.2 n hn (hB n hn hb)⟩
  | .get k f, _, _, hB, h => ⟨h.1, fun e he => h.2.1 e (he.mono hB), h.2.2.mono hB⟩
  | .set k e p, _, _, hB, h => ⟨h.1, Prog.Own.mono (p := p) (fun n hn hb => by
      simp only [Bool.or_eq_true] at hb ⊢
      exact hb.imp_left (hB n hn)) h.2⟩

theorem Prog.Own.bind {α β : Type} {u : Bytes} {f : Ctx × α → Prog (Ctx × β)} (hf : ∀ r, r.1.src = u → Prog.Own u r.1.check (f r)) :
    ∀ {p : Prog (Ctx × α)} {B : Nat → Bool}, Prog.Own u B p → Prog.Own u B (p.bind f)
  | .ret r, _, h => (hf r h.1).mono h.2
  | .get _ _, _, h => ⟨h.1, fun e he => congrArg (fun p => Prog.bind p f) (h.2.1 e he), Prog.Own.bind hf h.2.2⟩
  | .set _ _ _, _, h => ⟨h.1, Prog.Own.bind hf h.2⟩

/-- The three flags and the user agent. -/
def dets (c : Ctx) : Bytes × List Bool := (c.src, detFlags.map c.check)

theorem dets_iff {c c' : Ctx} : dets c' = dets c ↔ c'.src = c.src ∧ ∀ n ∈ detFlags, c'.check n = c.check n := by
  simp [dets, detFlags]

/-- Methods, on every context. -/
structure M.Own {α : Type} (x : M α) : Prop where
  own : ∀ c, (x c).Own c.src c.check

namespace M.Own
variable {α β : Type}
theorem lift {x : P α} (h : ∀ c, dets (x c).1 = dets c) : M.Own (M.lift x) := ⟨fun c => by
  obtain ⟨h1, h2⟩ := dets_iff.mp (h c)
  exact ⟨h1, fun n hn hb => by rw [h2 n hn]; exact hb⟩⟩
theorem pure (a : α) : M.Own (Pure.pure a : M α) := ⟨fun _ => ⟨rfl, fun _ _ h => h⟩⟩
theorem ofOption (o : Option α) : M.Own (M.ofOption o) := ⟨fun _ => ⟨rfl, fun _ _ h => h⟩⟩
theorem modify {f : Ctx → Ctx} (h : ∀ c, dets (f c) = dets c) : M.Own (M.modify f) := lift (x := P.modify f) h
theorem bind {x : M α} {f : α → M β} (hx : x.Own) (hf : ∀ r, (f r).Own) : (x >>= f).Own := by
  constructor
  intro c
  rw [M.bind_apply]
  refine (hx.own c).bind ?_
  rintro ⟨c', _ | r⟩ h
  · exact ⟨h, fun _ _ h => h⟩
  · have := (hf r).own c'
    rw [show c'.src = c.src from h] at this
    exact this
theorem ctx {f : Ctx → M β} (hf : ∀ c, (f c).Own) : (M.ctx >>= f).Own := ⟨fun c => (hf c).own c⟩
theorem when {p : Prop} [Decidable p] {x : M Unit} (h : x.Own) : (M.when p x).Own := by
  unfold M.when; split
  · exact h
  · exact M.Own.pure ()
theorem ite {p : Prop} [Decidable p] {x y : M α} (h : x.Own) (h' : y.Own) : (if p then x else y).Own := by split <;> assumption
theorem defer {d : Option α → M Unit} {x : M α} (hd : ∀ r, (d r).Own) (hx : x.Own) : (M.defer d x).Own := by
  constructor
  intro c
  refine (hx.own c).bind ?_
  intro r hr
  rw [← hr]
  refine ((hd r.2).own r.1).bind ?_
  intro r' hr'
  exact ⟨hr', fun _ _ h => h⟩
theorem map {f : α → β} {x : M α} (h : x.Own) : (M.map f x).Own := h.bind fun _ => .pure _
end M.Own

section
variable {T : Tables} {H : Bytes → UInt64}

theorem own_finish {flag : Nat} (hf : flag < 64) : (finishParse flag).Own := by
  constructor
  intro c
  refine ⟨rfl, rfl, ?_⟩
  intro n _ hb
  have hb : (c.check n || (c.setBit flag).check n) = true := hb
  show (c.setBit flag).check n = true
  rw [Ctx.check_setBit _ _ _ hf] at hb ⊢
  rcases Bool.or_eq_true _ _ |>.mp hb with h | h
  · rw [h]; simp
  · exact h

/-- The parse methods, called when their part is not detected yet. -/
theorem own_frame {flag : Nat} (hm : flag ∈ detFlags) {body : M Bool} (hb : body.Own) {c : Ctx} (hc : c.check flag = false) :
    (parseFrame flag body c).Own c.src c.check := by
  have hf : flag < 64 := by
    simp only [detFlags, List.mem_cons, List.not_mem_nil, or_false] at hm
    rcases hm with rfl | rfl | rfl <;> decide
  unfold parseFrame
  simp only [M.ctx_bind, M.cacheGet_bind]
  refine ⟨rfl, fun e he => ?_, (M.Own.defer (fun _ => own_finish hf) hb).own c⟩
  have : ¬ e.bits.check flag = true := fun h => by rw [he flag hm h] at hc; cases hc
  dsimp only
  rw [if_neg this]

theorem own_ensure {flag : Nat} {x : M Bool} (hx : ∀ c : Ctx, c.check flag = false → (x c).Own c.src c.check) : (ensure flag x).Own := by
  constructor
  intro c
  unfold ensure
  rw [M.ctx_bind]
  unfold M.when
  split
  · rename_i h
    have h : c.check flag = false := by simpa using h
    rw [M.bind_apply]
    refine (hx c h).bind ?_
    rintro ⟨c', _ | r⟩ hs <;> exact ⟨hs, fun _ _ h => h⟩
  · exact ⟨rfl, fun _ _ h => h⟩

theorem dets_detectClient (c : Ctx) : dets (detectClient T c).1 = dets c := by
  have h := (locC_detectClient T c c rfl).2.2
  have h1 := h.1
  simp [restC] at h1
  rw [dets_iff]
  exact ⟨by simp [h1], fun n hn => h.2 n (by rintro rfl; revert hn; decide) (by rintro rfl; revert hn; decide)⟩

theorem dets_detectOS (c : Ctx) : dets (detectOS T c).1 = dets c := by
  have h := (locO_detectOS T c c rfl).2.2
  have h1 := h.1
  simp [restO] at h1
  rw [dets_iff]
  exact ⟨by simp [h1], fun n hn => h.2 n (by rintro rfl; revert hn; decide) (by rintro rfl; revert hn; decide)⟩

theorem dets_evalDeviceBody (i : Nat) (d : DeviceType) (c : Ctx) : dets (evalDeviceBody T i d c).1 = dets c := by
  have h := (locD_evalDeviceBody T i d c c rfl).2.2
  have h1 := h.1
  simp [restD] at h1
  rw [dets_iff]
  exact ⟨by simp [h1], fun n hn => by unfold Ctx.check; rw [h.2]⟩

theorem dets_setBit {c : Ctx} {n : Nat} (hn : n < 64) (h : n ∉ detFlags) : dets (c.setBit n) = dets c := by
  rw [dets_iff]
  refine ⟨rfl, fun m hm => ?_⟩
  rw [Ctx.check_setBit _ _ _ hn]
  have : n ≠ m := by rintro rfl; exact h hm
  rw [decide_eq_false this]
  rfl

theorem dets_fallback (c : Ctx) : dets (deviceFallback T c).1 = dets c := by
  unfold deviceFallback
  simp only [P.ctx_bind]
  split
  · rfl
  · split
    · rfl
    · rw [P.bind_apply]
      have : dets (P.when (c.brandName64 = 0) (evalVendor T) c).1 = dets c := by
        unfold P.when
        split
        · have h := (locV_vendorLoop T T.vrIdx c c rfl).2.2
          have h1 := h.1
          simp at h1
          rw [dets_iff]
          exact ⟨by show (vendorLoop T T.vrIdx c).1.src = _; simp [h1], fun n hn => h.2 n (by rintro rfl; revert hn; decide)⟩
        · rfl
      revert this
      rcases P.when (c.brandName64 = 0) (evalVendor T) c with ⟨c', _ | _⟩ <;> exact id

theorem own_ensureC : (ensure flagClientDetect (parseClient T)).Own :=
  own_ensure fun _ hc => own_frame (by decide) (.lift dets_detectClient) hc

theorem own_ensureO : (ensure flagOSDetect (parseOS T)).Own :=
  own_ensure fun _ hc => own_frame (by decide) (.lift dets_detectOS) hc

macro "own" : tactic => `(tactic| repeat' first
  | with_reducible assumption | with_reducible exact M.Own.pure _ | with_reducible exact M.Own.ofOption _ | exact M.Own.modify fun c => rfl
  | with_reducible refine M.Own.ctx fun _ => ?_
  | with_reducible refine M.Own.bind ?_ fun _ => ?_ | with_reducible refine M.Own.when ?_ | with_reducible refine M.Own.ite ?_ ?_)

theorem own_getOS : (getOS T).Own := by
  have := own_ensureO (T := T)
  unfold getOS; own

theorem own_deviceTry {b : DeviceType} {i : Nat} {d : DeviceType} {rest : M Bool} (hr : rest.Own) : (deviceTry T b i d rest).Own := by
  have hdef : ∀ r, (evalDeviceDeferred T i r).Own := by
    intro r
    unfold evalDeviceDeferred
    split
    · exact .pure _
    · refine .ite (.pure _) (own_getOS.bind fun _ => .ite (.modify fun c => dets_setBit (by decide) (by decide)) (.pure _))
  unfold deviceTry
  refine .ctx fun _ => .ite (.bind ?_ ?_) hr
  · exact M.Own.defer hdef (.lift (dets_evalDeviceBody i d))
  · rintro (_ | t)
    · exact hr
    · dsimp only; own

theorem own_ensureD : (ensure flagDeviceDetect (parseDevice T)).Own := by
  refine own_ensure fun c hc => own_frame (by decide) ?_ hc
  unfold detectDevice
  exact own_deviceTry <| own_deviceTry <| own_deviceTry <| own_deviceTry <| own_deviceTry <| own_deviceTry <| own_deviceTry <| own_deviceTry <|
    .lift dets_fallback

theorem own_getter (g : Getter) : (g.prog T).Own := by
  have hC := own_ensureC (T := T)
  have hD := own_ensureD (T := T)
  have hO := own_ensureO (T := T)
  have h1 : (getBrowserVersionString T).Own := by unfold getBrowserVersionString; own
  have h2 : (getEngineVersionString T).Own := by unfold getEngineVersionString; own
  have h3 : (getOSVersionString T).Own := by unfold getOSVersionString; own
  cases g with
  | userAgent => refine .map ?_; unfold getUserAgent; own
  | clientType => refine .map ?_; unfold getClientType; own
  | browser => refine .map ?_; unfold getBrowser; own
  | browserVersion => refine .map ?_; unfold getBrowserVersion; own
  | browserVersionString => exact .map h1
  | engine => refine .map ?_; unfold getEngine; own
  | engineVersion => refine .map ?_; unfold getEngineVersion; own
  | engineVersionString => exact .map h2
  | deviceType => refine .map ?_; unfold getDeviceType; own
  | brand => refine .map ?_; unfold getBrand; own
  | model => refine .map ?_; unfold getModel; own
  | os => exact .map own_getOS
  | osVersion => refine .map ?_; unfold getOSVersion; own
  | osVersionString => exact .map h3

theorem own_get (g : Getter) : ((Op.get g).prog T H).Own := (own_getter g).map

end
end Verif

import Verif.Proofs.Answers
import Verif.Spec.Traffic
/-
Invariants of single contexts and entries, in every schedule; which code assigns the client and device types.
-/
namespace Verif

section
variable {T : Tables} {H : Bytes → UInt64}

/-- The cache answers with an error or an entry meeting `S`. -/
def Rely (S : Bytes → CacheEntry → Prop) (k : Bytes) : GetResp → Prop
  | .miss => True
  | .nilEntry => False
  | .hit e => S k e

/-- An invariant `I` of contexts and `S` of entries kept by every operation holds in every schedule. -/
theorem sys_gen {I : Ctx → Prop} {S : Bytes → CacheEntry → Prop} {Q : Op → Option (Option Ans) → Prop} (h0 : I newCtx)
    (hS : ∀ k e e', S k e' → SameButKey e e' → S k e)
    (hop : ∀ (op : Op) c, I c → (op.prog T H c).Safe (Rely S) S (fun r => I r.1 ∧ Q op r.2)) {s : Sys} (hr : Sys.Reach T H s) :
    ∀ t op r, .ret t op r ∈ s.log → Q op r := by
  have key : (∀ k e, (k, e) ∈ s.hist → S k e) ∧ (∀ t c, s.threads t = .idle c → I c) ∧
      (∀ t op p, s.threads t = .busy op p → p.Safe (Rely S) S (fun r => I r.1 ∧ Q op r.2)) ∧ (∀ t op r, .ret t op r ∈ s.log → Q op r) := by
    induction hr with
    | init => exact ⟨by simp [Sys.init], fun t c h => by simp [Sys.init] at h; subst h; exact h0, by simp [Sys.init], by simp [Sys.init]⟩
    | @step s s' hr st ih =>
      obtain ⟨i1, i2, i3, i4⟩ := ih
      have idle : ∀ {t0 : Nat} {th : Thread}, (∀ c, th = .idle c → I c) → ∀ t c, s.put t0 th t = .idle c → I c := by
        intro t0 th h t c h'
        by_cases e : t = t0
        · subst e; rw [put_same] at h'; exact h c h'
        · rw [put_ne _ _ e] at h'; exact i2 t c h'
      have busy : ∀ {t0 : Nat} {th : Thread}, (∀ op p, th = .busy op p → p.Safe (Rely S) S (fun r => I r.1 ∧ Q op r.2)) →
          ∀ t op p, s.put t0 th t = .busy op p → p.Safe (Rely S) S (fun r => I r.1 ∧ Q op r.2) := by
        intro t0 th h t op p h'
        by_cases e : t = t0
        · subst e; rw [put_same] at h'; exact h op p h'
        · rw [put_ne _ _ e] at h'; exact i3 t op p h'
      cases st with
      | @call t c op h =>
        refine ⟨i1, idle (by simp), busy ?_, by simpa using i4⟩
        rintro _ _ ⟨⟩
        exact hop op c (i2 t c h)
      | @getMiss t op k f h =>
        refine ⟨i1, idle (by simp), busy ?_, i4⟩
        rintro _ _ ⟨⟩
        exact i3 t op _ h .miss trivial
      | @getHit t op k f h e e' he hs =>
        refine ⟨i1, idle (by simp), busy ?_, i4⟩
        rintro _ _ ⟨⟩
        exact i3 t op _ h (.hit e) (hS k e e' (i1 k e' he) hs)
      | @set t op k e p h =>
        have hb := i3 t op _ h
        refine ⟨?_, idle (by simp), busy ?_, i4⟩
        · intro k' e' h'
          simp only [List.mem_append, List.mem_singleton] at h'
          rcases h' with h' | h'
          · exact i1 k' e' h'
          · cases h'; exact hb.1
        · rintro _ _ ⟨⟩
          exact hb.2
      | @ret t op c r h =>
        have hb : I c ∧ Q op r := i3 t op _ h
        refine ⟨i1, idle ?_, busy (by simp), ?_⟩
        · rintro _ ⟨⟩
          exact hb.1
        · intro t' op' r' h'
          simp only [List.mem_append, List.mem_singleton] at h'
          rcases h' with h' | h'
          · exact i4 t' op' r' h'
          · cases h'; exact hb.2
  exact key.2.2.2

/-! ### Code leaving a part of the context alone -/

/-- `x` keeps the value of `f`, panics included. -/
structure P.Fix {α β : Type} (f : Ctx → β) (x : P α) : Prop where
  eq : ∀ c, f (x c).1 = f c

namespace P.Fix
variable {β : Type} {f : Ctx → β}
theorem pure {α : Type} (a : α) : P.Fix f (Pure.pure a : P α) := ⟨fun _ => rfl⟩
theorem ofOption {α : Type} (o : Option α) : P.Fix f (P.ofOption o) := ⟨fun _ => rfl⟩
theorem modify {g : Ctx → Ctx} (h : ∀ c, f (g c) = f c) : P.Fix f (P.modify g) := ⟨h⟩
theorem bind {α γ : Type} {x : P α} {g : α → P γ} (hx : P.Fix f x) (hg : ∀ a, P.Fix f (g a)) : P.Fix f (x >>= g) := by
  constructor
  intro c
  rw [P.bind_apply]
  rcases hr : x c with ⟨c', _ | a⟩
  · have := hx.eq c; rw [hr] at this; exact this
  · have := hx.eq c; rw [hr] at this; exact ((hg a).eq c').trans this
theorem ctx {γ : Type} {g : Ctx → P γ} (hg : ∀ a, P.Fix f (g a)) : P.Fix f (P.ctx >>= g) := ⟨fun c => (hg c).eq c⟩
theorem when {p : Prop} [Decidable p] {x : P Unit} (h : P.Fix f x) : P.Fix f (P.when p x) := by
  unfold P.when; split
  · exact h
  · exact .pure ()
theorem ite {α : Type} {p : Prop} [Decidable p] {x y : P α} (h : P.Fix f x) (h' : P.Fix f y) : P.Fix f (if p then x else y) := by
  split <;> assumption
end P.Fix

/-- The user agent and the filters. -/
def Ctx.keep (c : Ctx) : Bytes × ClientType × DeviceType := (c.src, c.maskClientType, c.maskDeviceType)

/-- Client and device type, user agent and filters of a context. -/
def types (c : Ctx) : ClientType × DeviceType × Bytes × ClientType × DeviceType := (c.clientType, c.deviceType, c.keep)

macro "fix" : tactic => `(tactic| repeat' first
  | with_reducible assumption | with_reducible exact P.Fix.pure _ | with_reducible exact P.Fix.ofOption _ | exact P.Fix.modify fun c => rfl
  | with_reducible refine P.Fix.ctx fun _ => ?_
  | with_reducible refine P.Fix.bind ?_ fun _ => ?_ | with_reducible refine P.Fix.when ?_ | with_reducible refine P.Fix.ite ?_ ?_)

theorem fix_clientEvalVersion (re : Re) (x : ClientTuple) : P.Fix types (clientEvalVersion re x) := by unfold clientEvalVersion; fix
theorem fix_clientLoop : ∀ l, P.Fix types (clientLoop T l)
  | [] => .pure _
  | v :: l => by
    have := fix_clientLoop l
    unfold clientLoop; fix
    apply fix_clientEvalVersion
theorem fix_engineLoop : ∀ l, P.Fix types (engineLoop T l)
  | [] => .pure _
  | v :: l => by
    have := fix_engineLoop l
    unfold engineLoop; fix
theorem fix_evalEngine (x : ClientTuple) : P.Fix types (evalEngine T x) := by
  have h1 : P.Fix types (engineFromRule T x) := by unfold engineFromRule; fix
  have h2 : P.Fix types (engineFromList T) := by
    unfold engineFromList; fix
    · apply fix_engineLoop
    · rename_i o; cases o <;> fix
  have h3 : P.Fix types (engineEvalVersion T) := by unfold engineEvalVersion; fix; split <;> fix
  have h4 : P.Fix types (engineForceBlink T) := by unfold engineForceBlink; fix
  unfold evalEngine; fix
theorem fix_evalClient (i : Nat) : P.Fix types (evalClient T i) := by
  unfold evalClient; fix
  · apply fix_clientLoop
  · rename_i o; cases o <;> fix
    apply fix_evalEngine

theorem fix_osVerLoop : ∀ l, P.Fix types (osVerLoop T l)
  | [] => .pure _
  | v :: l => by
    have := fix_osVerLoop l
    unfold osVerLoop; fix
theorem fix_osEvalMatch (re : Re) (x : OSTuple) : P.Fix types (osEvalMatch re x) := by unfold osEvalMatch; fix
theorem fix_osEvalVer (e : Entry64) : P.Fix types (osEvalVer T e) := by unfold osEvalVer; fix; apply fix_osVerLoop
theorem fix_osLoop (a b : Bool) : ∀ l, P.Fix types (osLoop T a b l)
  | [] => .pure _
  | v :: l => by
    have := fix_osLoop a b l
    unfold osLoop; fix
    · apply fix_osEvalMatch
    · apply fix_osEvalVer
theorem fix_detectOS : P.Fix types (detectOS T) := by
  unfold detectOS; fix
  · apply fix_osLoop
  · rename_i o; cases o <;> fix

theorem fix_deviceLoop : ∀ l, P.Fix types (deviceLoop T l)
  | [] => .pure _
  | v :: l => by
    have := fix_deviceLoop l
    unfold deviceLoop; fix
theorem fix_bufModel (raw : Bytes) : P.Fix types (bufModel raw) := by unfold bufModel bufAppend; fix
theorem fix_mneLoop (raw : Bytes) (m : List Int) (src : Bytes) : ∀ n p, P.Fix types (mneLoop raw m src n p)
  | 0, _ => .ofOption _
  | n + 1, p => by
    have := fix_mneLoop raw m src n
    unfold mneLoop; unfold bufAppend; fix
    dsimp only
    split <;> fix
    apply this
theorem fix_mne (e : Entry64) : P.Fix types (deviceBufMNE T e) := by
  have := fix_bufModel
  unfold deviceBufMNE; fix
theorem fix_mne1 (e : Entry64) (re : Re) : P.Fix types (deviceBufMNE1 T e re) := by
  unfold deviceBufMNE1; fix
  split
  · unfold bufAppend; fix; apply fix_mneLoop
  · apply fix_bufModel
theorem fix_modelLoop (x : DeviceTuple) (d : DeviceType) : ∀ n i, P.Fix types (modelLoop T x d n i)
  | 0, _ => .pure _
  | n + 1, i => by
    have := fix_modelLoop x d n
    unfold modelLoop; fix
    all_goals first | apply fix_mne1 | apply fix_mne | apply this
theorem fix_deviceFill (x : DeviceTuple) (d : DeviceType) : P.Fix types (deviceFill T x d) := by
  unfold deviceFill; fix
  all_goals first | apply fix_mne1 | apply fix_mne | apply fix_modelLoop
theorem fix_evalDeviceBody (i : Nat) (d : DeviceType) : P.Fix types (evalDeviceBody T i d) := by
  unfold evalDeviceBody; fix
  · apply fix_deviceLoop
  · rename_i o; cases o <;> fix
    apply fix_deviceFill
theorem fix_vendorFrag (b : VendorTuple) : ∀ n j, P.Fix types (vendorFragLoop T b n j)
  | 0, _ => .pure _
  | n + 1, j => by
    have := fix_vendorFrag b n
    unfold vendorFragLoop; fix
    apply this
theorem fix_vendorLoop : ∀ l, P.Fix types (vendorLoop T l)
  | [] => .pure _
  | v :: l => by
    have := fix_vendorLoop l
    unfold vendorLoop; fix
    apply fix_vendorFrag

/-! ### Types in every schedule -/

/-- Declared client types, and 0. -/
def clientTypes : List ClientType := [0, ClientTypeBrowser, ClientTypeMobileApp, ClientTypeLibrary, ClientTypeFeedReader, ClientTypeMediaPlayer, ClientTypePIM]
/-- Declared device types, and 0. -/
def deviceTypes : List DeviceType :=
  [0, DeviceTypeNotebook, DeviceTypeMobile, DeviceTypePhablet, DeviceTypeTablet, DeviceTypeConsole, DeviceTypeTV, DeviceTypeShellTV,
   DeviceTypeCamera, DeviceTypeCarBrowser, DeviceTypePortableMediaPlayer]

def Typed (c : Ctx) : Prop := c.clientType ∈ clientTypes ∧ c.deviceType ∈ deviceTypes
def TypedE (_ : Bytes) (e : CacheEntry) : Prop := e.clientType ∈ clientTypes ∧ e.deviceType ∈ deviceTypes

theorem Typed.of_fix {α : Type} {x : P α} (hx : P.Fix types x) {c : Ctx} (h : Typed c) : Typed (x c).1 := by
  have := hx.eq c
  simp only [types, Prod.mk.injEq] at this
  exact ⟨by rw [this.1]; exact h.1, by rw [this.2.1]; exact h.2⟩

/-- `x` keeps the types declared, in every schedule. -/
structure M.Ty {α : Type} (x : M α) : Prop where
  tri : M.Tri (Rely TypedE) TypedE Typed x (fun _ => Typed)

namespace M.Ty
theorem lift {α : Type} {x : P α} (h : ∀ c, Typed c → Typed (x c).1) : M.Ty (M.lift x) := ⟨fun c hc => h c hc⟩
theorem fix {α : Type} {x : P α} (h : P.Fix types x) : M.Ty (M.lift x) := .lift fun _ hc => hc.of_fix h
theorem pure {α : Type} (a : α) : M.Ty (Pure.pure a : M α) := ⟨fun _ hc => hc⟩
theorem ofOption {α : Type} (o : Option α) : M.Ty (M.ofOption o) := ⟨fun _ hc => hc⟩
theorem modify {f : Ctx → Ctx} (h : ∀ c, types (f c) = types c) : M.Ty (M.modify f) :=
  .fix (.modify h)
theorem bind {α β : Type} {x : M α} {f : α → M β} (hx : x.Ty) (hf : ∀ a, (f a).Ty) : (x >>= f).Ty :=
  ⟨hx.tri.bind (fun _ h => h) fun a => (hf a).tri⟩
theorem ctx {β : Type} {f : Ctx → M β} (hf : ∀ a, (f a).Ty) : (M.ctx >>= f).Ty := ⟨fun c hc => (hf c).tri c hc⟩
theorem when {p : Prop} [Decidable p] {x : M Unit} (h : x.Ty) : (M.when p x).Ty := by
  unfold M.when; split
  · exact h
  · exact .pure ()
theorem ite {α : Type} {p : Prop} [Decidable p] {x y : M α} (h : x.Ty) (h' : y.Ty) : (if p then x else y).Ty := by split <;> assumption
theorem defer {α : Type} {d : Option α → M Unit} {x : M α} (hd : ∀ r, (d r).Ty) (hx : x.Ty) : (M.defer d x).Ty := by
  constructor
  intro c hc
  refine (hx.tri c hc).bind ?_
  intro r hr
  refine ((hd r.2).tri r.1 hr).bind ?_
  intro r' hr'
  exact hr'
theorem map {α β : Type} {f : α → β} {x : M α} (h : x.Ty) : (M.map f x).Ty := .bind h fun _ => .pure _
end M.Ty

macro "ty" : tactic => `(tactic| repeat' first
  | with_reducible assumption | with_reducible exact M.Ty.pure _ | with_reducible exact M.Ty.ofOption _ | exact M.Ty.modify fun c => rfl
  | with_reducible refine M.Ty.ctx fun _ => ?_
  | with_reducible refine M.Ty.bind ?_ fun _ => ?_ | with_reducible refine M.Ty.when ?_ | with_reducible refine M.Ty.ite ?_ ?_)

theorem ty_frame {flag : Nat} {body : M Bool} (hb : body.Ty) : (parseFrame flag body).Ty := by
  have hf : (finishParse flag).Ty := by
    constructor
    intro c hc
    exact ⟨⟨hc.1, hc.2⟩, hc⟩
  constructor
  intro c hc
  unfold parseFrame
  simp only [M.ctx_bind, M.cacheGet_bind]
  intro r hr
  cases r with
  | miss => exact (M.Ty.defer (fun _ => hf) hb).tri c hc
  | nilEntry => exact hr.elim
  | hit e =>
    show Prog.Safe _ _ _ ((if e.bits.check flag then _ else _ : M Bool) c)
    split
    · exact ⟨hr.1, hr.2⟩
    · exact (M.Ty.defer (fun _ => hf) hb).tri c hc

theorem ty_ensure {flag : Nat} {x : M Bool} (h : x.Ty) : (ensure flag x).Ty := by unfold ensure; ty

theorem Typed.clientTry {t : ClientType} (ht : t ∈ clientTypes) {i : Nat} {rest : P Bool} (hr : ∀ c, Typed c → Typed (rest c).1) :
    ∀ c, Typed c → Typed (Verif.clientTry T t i rest c).1 := by
  intro c hc
  unfold Verif.clientTry
  simp only [P.ctx_bind]
  split
  · rw [P.bind_apply]
    have := hc.of_fix (fix_evalClient (T := T) i)
    rcases hx : evalClient T i c with ⟨c', _ | _ | _⟩ <;> rw [hx] at this
    · exact this
    · exact hr _ this
    · exact ⟨ht, this.2⟩
  · exact hr c hc

theorem ty_parseClient : (parseClient T).Ty := by
  refine ty_frame (.lift ?_)
  unfold detectClient
  refine Typed.clientTry (by decide) <| Typed.clientTry (by decide) <| Typed.clientTry (by decide) <| Typed.clientTry (by decide) <|
    Typed.clientTry (by decide) <| Typed.clientTry (by decide) fun c hc => hc

theorem ty_parseOS : (parseOS T).Ty := ty_frame (.fix fix_detectOS)

theorem ty_getOS : (getOS T).Ty := by
  have := ty_ensure (flag := flagOSDetect) (ty_parseOS (T := T))
  unfold getOS; ty

theorem evalType_mem {a b : Entry64} {d t : DeviceType} (hd : d ∈ deviceTypes) (h : deviceEvalType T a b d = some t) : t ∈ deviceTypes := by
  have key : ∀ raw, deviceTypeOfText raw d ∈ deviceTypes := by
    intro raw
    unfold deviceTypeOfText
    repeat' split
    all_goals first | exact hd | decide
  simp only [deviceEvalType, Option.bind_eq_bind, Option.bind_eq_some_iff] at h
  obtain ⟨raw, -, h⟩ := h
  obtain ⟨raw', -, h⟩ := h
  split at h
  · cases h; exact hd
  · cases h; exact key _

/-- Results of `x` are declared types. -/
structure P.Res {α : Type} (Q : α → Prop) (x : P α) : Prop where
  res : ∀ c a, (x c).2 = some a → Q a

namespace P.Res
variable {α β : Type} {Q : β → Prop}
theorem bind {x : P α} {f : α → P β} (h : ∀ a, P.Res Q (f a)) : P.Res Q (x >>= f) := by
  constructor
  intro c b hb
  rw [P.bind_apply] at hb
  rcases hx : x c with ⟨c', _ | a⟩ <;> rw [hx] at hb
  · cases hb
  · exact (h a).res c' b hb
theorem ofOption {o : Option β} (h : ∀ a, o = some a → Q a) : P.Res Q (P.ofOption o) := ⟨fun _ a ha => h a ha⟩
theorem pure {a : β} (h : Q a) : P.Res Q (Pure.pure a : P β) := ⟨fun _ b hb => by cases hb; exact h⟩
theorem ite {p : Prop} [Decidable p] {x y : P β} (h : P.Res Q x) (h' : P.Res Q y) : P.Res Q (if p then x else y) := by split <;> assumption
end P.Res

theorem res_modelLoop {x : DeviceTuple} {d : DeviceType} (hd : d ∈ deviceTypes) : ∀ n i, P.Res (· ∈ deviceTypes) (modelLoop T x d n i)
  | 0, _ => .pure hd
  | n + 1, i => by
    have := res_modelLoop hd n (x := x)
    unfold modelLoop
    repeat' first
      | exact this _ | exact P.Res.ofOption fun a ha => evalType_mem hd ha
      | with_reducible refine P.Res.bind fun _ => ?_ | with_reducible refine P.Res.ite ?_ ?_

theorem res_deviceFill {x : DeviceTuple} {d : DeviceType} (hd : d ∈ deviceTypes) : P.Res (· ∈ deviceTypes) (deviceFill T x d) := by
  unfold deviceFill
  repeat' first
    | exact res_modelLoop hd _ _ | exact P.Res.ofOption fun a ha => evalType_mem hd ha
    | with_reducible refine P.Res.bind fun _ => ?_ | with_reducible refine P.Res.ite ?_ ?_

theorem res_evalDeviceBody {i : Nat} {d : DeviceType} (hd : d ∈ deviceTypes) :
    P.Res (fun r : Option DeviceType => ∀ t, r = some t → t ∈ deviceTypes) (evalDeviceBody T i d) := by
  unfold evalDeviceBody
  refine .bind fun _ => .bind fun _ => .bind fun o => ?_
  cases o with
  | none => exact .pure (by simp)
  | some x =>
    constructor
    intro c a ha t ht
    have ha : ((deviceFill T x d >>= fun typ => Pure.pure (some typ)) c).2 = some a := ha
    rw [P.bind_apply] at ha
    rcases hx : deviceFill T x d c with ⟨c', _ | t'⟩ <;> rw [hx] at ha
    · cases ha
    · cases ha; cases ht
      exact (res_deviceFill hd).res c _ (by rw [hx])

theorem ty_deviceTry {b : DeviceType} {i : Nat} {d : DeviceType} (hd : d ∈ deviceTypes) {rest : M Bool} (hr : rest.Ty) :
    (deviceTry T b i d rest).Ty := by
  have hdef : ∀ r, (evalDeviceDeferred T i r).Ty := by
    intro r
    have := ty_getOS (T := T)
    unfold evalDeviceDeferred
    split
    · exact .pure _
    · ty
  unfold deviceTry
  refine .ctx fun _ => .ite ?_ hr
  constructor
  refine M.Tri.bind (mid := fun r c => Typed c ∧ ∀ t, r = some (some t) → t ∈ deviceTypes) ?_ (fun _ h => h.1) ?_
  · intro c hc
    unfold evalDevice M.defer
    rw [M.lift_apply]
    refine ((hdef _).tri _ (hc.of_fix (fix_evalDeviceBody i d))).bind ?_
    rintro ⟨c', o⟩ hr'
    refine ⟨hr', ?_⟩
    intro t ht
    cases o with
    | none => cases ht
    | some _ => exact (res_evalDeviceBody hd).res _ _ ht t rfl
  · intro a c hc
    cases a with
    | none => exact hr.tri c hc.1
    | some t => exact ⟨hc.1.1, hc.2 t rfl⟩

theorem ty_parseDevice : (parseDevice T).Ty := by
  refine ty_frame ?_
  unfold detectDevice
  refine ty_deviceTry (by decide) <| ty_deviceTry (by decide) <| ty_deviceTry (by decide) <| ty_deviceTry (by decide) <|
    ty_deviceTry (by decide) <| ty_deviceTry (by decide) <| ty_deviceTry (by decide) <| ty_deviceTry (by decide) <| .lift ?_
  intro c hc
  unfold deviceFallback
  simp only [P.ctx_bind]
  split
  · exact ⟨hc.1, (by decide : DeviceTypeTablet ∈ deviceTypes)⟩
  · split
    · exact ⟨hc.1, (by decide : DeviceTypeMobile ∈ deviceTypes)⟩
    · refine hc.of_fix ?_
      have := fix_vendorLoop (T := T) T.vrIdx
      unfold evalVendor
      fix

/-- What C25 asks of an answer. -/
def TypedAns : Option Ans → Prop
  | some (.clientType t) => t ∈ clientTypes
  | some (.deviceType t) => t ∈ deviceTypes
  | _ => True

theorem typed_getter (g : Getter) : M.Tri (Rely TypedE) TypedE Typed (g.prog T) (fun r c => Typed c ∧ TypedAns r) := by
  have hC := ty_ensure (flag := flagClientDetect) (ty_parseClient (T := T))
  have hD := ty_ensure (flag := flagDeviceDetect) (ty_parseDevice (T := T))
  have hO := ty_ensure (flag := flagOSDetect) (ty_parseOS (T := T))
  have txt : ∀ {x : M Bytes}, x.Ty → M.Tri (Rely TypedE) TypedE Typed (M.map Ans.text x) (fun r c => Typed c ∧ TypedAns r) := by
    intro x hx
    refine M.Tri.map hx.tri ?_
    rintro (_ | a) c h <;> exact ⟨h, trivial⟩
  have ver : ∀ {x : M Version}, x.Ty → M.Tri (Rely TypedE) TypedE Typed (M.map Ans.version x) (fun r c => Typed c ∧ TypedAns r) := by
    intro x hx
    refine M.Tri.map hx.tri ?_
    rintro (_ | a) c h <;> exact ⟨h, trivial⟩
  have h1 : (getBrowserVersionString T).Ty := by unfold getBrowserVersionString; ty
  have h2 : (getEngineVersionString T).Ty := by unfold getEngineVersionString; ty
  have h3 : (getOSVersionString T).Ty := by unfold getOSVersionString; ty
  cases g with
  | userAgent => refine txt ?_; unfold getUserAgent; ty
  | clientType =>
    refine M.Tri.map (post := fun r c => Typed c ∧ ∀ t, r = some t → t ∈ clientTypes) ?_ ?_
    · refine hC.tri.bind (fun c h => ⟨h, by simp⟩) ?_
      intro _ c hc
      exact ⟨hc, fun t ht => by cases ht; exact hc.1⟩
    · rintro (_ | a) c h
      · exact ⟨h.1, trivial⟩
      · exact ⟨h.1, h.2 a rfl⟩
  | browser => refine txt ?_; unfold getBrowser; ty
  | browserVersion => refine ver ?_; unfold getBrowserVersion; ty
  | browserVersionString => exact txt h1
  | engine => refine txt ?_; unfold getEngine; ty
  | engineVersion => refine ver ?_; unfold getEngineVersion; ty
  | engineVersionString => exact txt h2
  | deviceType =>
    refine M.Tri.map (post := fun r c => Typed c ∧ ∀ t, r = some t → t ∈ deviceTypes) ?_ ?_
    · refine hD.tri.bind (fun c h => ⟨h, by simp⟩) ?_
      intro _ c hc
      simp only [M.ctx_bind]
      split
      · exact ⟨hc, fun t ht => by cases ht; decide⟩
      · exact ⟨hc, fun t ht => by cases ht; exact hc.2⟩
    · rintro (_ | a) c h
      · exact ⟨h.1, trivial⟩
      · exact ⟨h.1, h.2 a rfl⟩
  | brand => refine txt ?_; unfold getBrand; ty
  | model => refine txt ?_; unfold getModel; ty
  | os => exact txt ty_getOS
  | osVersion => refine ver ?_; unfold getOSVersion; ty
  | osVersionString => exact txt h3

theorem typed_op (op : Op) (c : Ctx) (hc : Typed c) : (op.prog T H c).Safe (Rely TypedE) TypedE
    (fun r => Typed r.1 ∧ ∀ a, r.2 = some a → TypedAns a) := by
  cases op with
  | setUserAgent ua => exact ⟨⟨(by decide : (0 : ClientType) ∈ clientTypes), (by decide : (0 : DeviceType) ∈ deviceTypes)⟩, by rintro a ⟨⟩; trivial⟩
  | setRequestedWith x =>
    refine ⟨?_, by rintro a ⟨⟩; trivial⟩
    unfold Ctx.setRequestedWith
    split <;> exact hc
  | filterClientType m => exact ⟨hc, by rintro a ⟨⟩; trivial⟩
  | filterDeviceType m => exact ⟨hc, by rintro a ⟨⟩; trivial⟩
  | reset => exact ⟨⟨(by decide : (0 : ClientType) ∈ clientTypes), (by decide : (0 : DeviceType) ∈ deviceTypes)⟩, by rintro a ⟨⟩; trivial⟩
  | get g =>
    refine M.Tri.map (post' := fun r c => Typed c ∧ ∀ a, r = some a → TypedAns a) (typed_getter g) ?_ c hc
    rintro (_ | a) c ⟨h1, h2⟩
    · exact ⟨h1, by rintro a ⟨⟩⟩
    · exact ⟨h1, by rintro a ⟨⟩; exact h2⟩

theorem typed_answers {s : Sys} (hr : Sys.Reach T H s) : ∀ t op r, .ret t op r ∈ s.log → ∀ a, r = some a → TypedAns a :=
  sys_gen (I := Typed) (S := TypedE) (Q := fun _ r => ∀ a, r = some a → TypedAns a) ⟨by decide, by decide⟩
    (fun k e e' h hs => by
      have : { e with hkey := e'.hkey, timestamp := e'.timestamp } = e' := hs
      have h1 : e.clientType = e'.clientType := by rw [← this]
      have h2 : e.deviceType = e'.deviceType := by rw [← this]
      exact ⟨by rw [h1]; exact h.1, by rw [h2]; exact h.2⟩)
    (fun op c hc => typed_op op c hc) hr

/-! ### Cache traffic -/

theorem Prog.Within.mono {α : Type} {k : Bytes} {Q Q' : α → Prop} (hQ : ∀ r, Q r → Q' r) : ∀ {p : Prog α} {a b a' b' : Nat}, a ≤ a' → b ≤ b' → Prog.Within k Q a b p → Prog.Within k Q' a' b' p
  | .ret r, _, _, _, _, _, _, h => hQ r h
  | .get _ f, a, b, a', b', h1, h2, h => ⟨h.1, by have := h.2.1; omega, fun r => Prog.Within.mono hQ (by omega) h2 (h.2.2 r)⟩
  | .set _ _ p, a, b, a', b', h1, h2, h => ⟨h.1, by have := h.2.1; omega, Prog.Within.mono hQ h1 (by omega) h.2.2⟩

theorem Prog.Within.bind {α β : Type} {k : Bytes} {Q : α → Prop} {R : β → Prop} {f : α → Prog β} {a' b' : Nat} (hf : ∀ r, Q r → Prog.Within k R a' b' (f r)) :
    ∀ {p : Prog α} {a b : Nat}, Prog.Within k Q a b p → Prog.Within k R (a + a') (b + b') (p.bind f)
  | .ret r, _, _, h => (hf r h).mono (fun _ h => h) (by omega) (by omega)
  | .get _ g, a, b, h => ⟨h.1, by have := h.2.1; omega, fun r => by
      have := Prog.Within.bind hf (h.2.2 r)
      refine this.mono (fun _ h => h) ?_ (by omega)
      have := h.2.1; omega⟩
  | .set _ _ p, a, b, h => ⟨h.1, by have := h.2.1; omega, by
      have := Prog.Within.bind hf h.2.2
      refine this.mono (fun _ h => h) (by omega) ?_
      have := h.2.1; omega⟩

/-- A method making at most `a` Gets and `b` Sets for the user agent of the context, which it keeps together with the filters. -/
structure M.Tr (a b : Nat) {α : Type} (x : M α) : Prop where
  tr : ∀ c, (x c).Within c.src (fun r => r.1.keep = c.keep) a b

namespace M.Tr
theorem mono {α : Type} {x : M α} {a b a' b' : Nat} (h : x.Tr a b) (h1 : a ≤ a') (h2 : b ≤ b') : x.Tr a' b' := ⟨fun c => (h.tr c).mono (fun _ h => h) h1 h2⟩
theorem lift {α : Type} {x : P α} (h : ∀ c, (x c).1.keep = c.keep) : M.Tr 0 0 (M.lift x) := ⟨h⟩
theorem fix {α : Type} {x : P α} (h : P.Fix types x) : M.Tr 0 0 (M.lift x) := ⟨fun c => by
  have := h.eq c
  simp only [types, Prod.mk.injEq] at this
  exact this.2.2⟩
theorem pure {α : Type} (a : α) : M.Tr 0 0 (Pure.pure a : M α) := ⟨fun _ => rfl⟩
theorem ofOption {α : Type} (o : Option α) : M.Tr 0 0 (M.ofOption o) := ⟨fun _ => rfl⟩
theorem modify {f : Ctx → Ctx} (h : ∀ c, (f c).keep = c.keep) : M.Tr 0 0 (M.modify f) := ⟨h⟩
theorem bind {α β : Type} {x : M α} {f : α → M β} {a b a' b' : Nat} (hx : x.Tr a b) (hf : ∀ r, (f r).Tr a' b') : (x >>= f).Tr (a + a') (b + b') := by
  constructor
  intro c
  rw [M.bind_apply]
  refine (hx.tr c).bind ?_
  rintro ⟨c', _ | r⟩ h
  · exact h
  · have h : c'.keep = c.keep := h
    have h' : c'.src = c.src := congrArg Prod.fst h
    rw [← h, ← h']
    exact (hf r).tr c'
theorem bind0 {α β : Type} {x : M α} {f : α → M β} {a b : Nat} (hx : x.Tr a b) (hf : ∀ r, (f r).Tr 0 0) : (x >>= f).Tr a b := hx.bind hf
theorem bind0' {α β : Type} {x : M α} {f : α → M β} {a b : Nat} (hx : x.Tr 0 0) (hf : ∀ r, (f r).Tr a b) : (x >>= f).Tr a b := (hx.bind hf).mono (by omega) (by omega)
theorem ctx {β : Type} {f : Ctx → M β} {a b : Nat} (hf : ∀ c, (f c).Tr a b) : (M.ctx >>= f).Tr a b := ⟨fun c => (hf c).tr c⟩
theorem when {p : Prop} [Decidable p] {x : M Unit} {a b : Nat} (h : x.Tr a b) : (M.when p x).Tr a b := by
  unfold M.when; split
  · exact h
  · exact (M.Tr.pure ()).mono (by omega) (by omega)
theorem ite {α : Type} {p : Prop} [Decidable p] {x y : M α} {a b : Nat} (h : x.Tr a b) (h' : y.Tr a b) : (if p then x else y).Tr a b := by split <;> assumption
theorem defer {α : Type} {d : Option α → M Unit} {x : M α} {a b a' b' : Nat} (hd : ∀ r, (d r).Tr a' b') (hx : x.Tr a b) : (M.defer d x).Tr (a + a') (b + b') := by
  constructor
  intro c
  refine (hx.tr c).bind ?_
  intro r hr
  have h' : r.1.src = c.src := congrArg Prod.fst hr
  rw [← hr, ← h']
  refine (((hd r.2).tr r.1).bind (a' := 0) (b' := 0) ?_).mono (fun _ h => h) (by omega) (by omega)
  intro r' hr'
  exact hr'
theorem map {α β : Type} {f : α → β} {x : M α} {a b : Nat} (h : x.Tr a b) : (M.map f x).Tr a b := h.bind0 fun _ => .pure _
end M.Tr

theorem tr_frame {flag : Nat} {body : M Bool} {a b : Nat} (hb : body.Tr a b) : (parseFrame flag body).Tr (a + 1) (b + 1) := by
  have hf : (finishParse flag).Tr 0 1 := ⟨fun c => ⟨rfl, by omega, rfl⟩⟩
  have hd := M.Tr.defer (fun _ => hf) hb
  constructor
  intro c
  unfold parseFrame
  simp only [M.ctx_bind, M.cacheGet_bind]
  refine ⟨rfl, by omega, fun r => ?_⟩
  cases r with
  | miss => exact hd.tr c
  | nilEntry => exact rfl
  | hit e =>
    show Prog.Within _ _ _ _ ((if e.bits.check flag then _ else _ : M Bool) c)
    split
    · exact rfl
    · exact hd.tr c

theorem tr_ensure {flag : Nat} {x : M Bool} {a b : Nat} (h : x.Tr a b) : (ensure flag x).Tr a b := by
  unfold ensure
  exact .ctx fun c => .when (h.bind0 fun _ => .pure _)

/-- Code keeping the user agent and the filters. -/
theorem src_clientTry {t : ClientType} {i : Nat} {rest : P Bool} (hr : ∀ c, (rest c).1.keep = c.keep) :
    ∀ c, (clientTry T t i rest c).1.keep = c.keep := by
  intro c
  unfold clientTry
  simp only [P.ctx_bind]
  split
  · rw [P.bind_apply]
    have := (fix_evalClient (T := T) i).eq c
    simp only [types, Prod.mk.injEq] at this
    have := this.2.2
    rcases hx : evalClient T i c with ⟨c', _ | _ | _⟩ <;> rw [hx] at this
    · exact this
    · exact (hr _).trans this
    · exact this
  · exact hr c

theorem tr_parseClient : (parseClient T).Tr 1 1 := by
  refine tr_frame (.lift ?_)
  unfold detectClient
  exact src_clientTry <| src_clientTry <| src_clientTry <| src_clientTry <| src_clientTry <| src_clientTry fun c => rfl

theorem tr_parseOS : (parseOS T).Tr 1 1 := tr_frame (.fix fix_detectOS)

macro "tr0" : tactic => `(tactic| repeat' first
  | with_reducible assumption | with_reducible exact M.Tr.pure _ | with_reducible exact M.Tr.ofOption _ | exact M.Tr.modify fun c => rfl
  | with_reducible refine M.Tr.ctx fun _ => ?_
  | with_reducible refine M.Tr.bind0 ?_ fun _ => ?_ | with_reducible refine M.Tr.when ?_ | with_reducible refine M.Tr.ite ?_ ?_)

theorem tr_getOS : (getOS T).Tr 1 1 := by
  have := tr_ensure (flag := flagOSDetect) (tr_parseOS (T := T))
  unfold getOS; tr0

theorem tr_deviceTry {b : DeviceType} {i : Nat} {d : DeviceType} {rest : M Bool} {x y x' y' : Nat} (hr : rest.Tr x y)
    (hi : i = dpNotebook → 1 ≤ x' ∧ 1 ≤ y') : (deviceTry T b i d rest).Tr (x' + x) (y' + y) := by
  have hdef : ∀ r, (evalDeviceDeferred T i r).Tr x' y' := by
    intro r
    unfold evalDeviceDeferred
    split
    · exact (M.Tr.pure _).mono (by omega) (by omega)
    · by_cases h : i = dpNotebook
      · have := (tr_getOS (T := T)).mono (hi h).1 (hi h).2
        refine .ite ((M.Tr.pure _).mono (by omega) (by omega)) (this.bind0 fun _ => ?_)
        tr0
      · rw [if_pos h]
        exact (M.Tr.pure _).mono (by omega) (by omega)
  unfold deviceTry
  refine .ctx fun _ => .ite (.bind ?_ ?_) (hr.mono (by omega) (by omega))
  · exact (M.Tr.defer hdef (.fix (fix_evalDeviceBody i d))).mono (by omega) (by omega)
  · rintro (_ | t)
    · exact hr
    · have : M.Tr 0 0 (M.modify (fun c => { c with deviceType := t }) >>= fun _ => (Pure.pure true : M Bool)) := by tr0
      exact this.mono (Nat.zero_le _) (Nat.zero_le _)

theorem tr_parseDevice : (parseDevice T).Tr 2 2 := by
  refine tr_frame (a := 1) (b := 1) ?_
  unfold detectDevice
  have hf : M.Tr 0 0 (M.lift (deviceFallback T)) := by
    refine .lift fun c => ?_
    unfold deviceFallback
    simp only [P.ctx_bind]
    split
    · rfl
    · split
      · rfl
      · have h := fix_vendorLoop (T := T) T.vrIdx
        have : P.Fix types (P.when (c.brandName64 = 0) (evalVendor T) >>= fun _ => (Pure.pure false : P Bool)) := by
          unfold evalVendor
          fix
        have := this.eq c
        simp only [types, Prod.mk.injEq] at this
        exact this.2.2
  have h0 := fun {b i d rest x y} (hr : M.Tr x y rest) (hi : i ≠ dpNotebook) => (tr_deviceTry (T := T) (b := b) (d := d) (x' := 0) (y' := 0) hr (fun h => absurd h hi)).mono (a' := x) (b' := y) (by omega) (by omega)
  exact h0 (h0 (h0 (h0 (h0 (h0 (h0 (tr_deviceTry hf fun _ => ⟨Nat.le_refl 1, Nat.le_refl 1⟩) (by decide)) (by decide)) (by decide)) (by decide)) (by decide)) (by decide)) (by decide)

theorem tr_getter (g : Getter) : (g.prog T).Tr (traffic (.get g)) (traffic (.get g)) := by
  have hC := tr_ensure (flag := flagClientDetect) (tr_parseClient (T := T))
  have hD := tr_ensure (flag := flagDeviceDetect) (tr_parseDevice (T := T))
  have hO := tr_ensure (flag := flagOSDetect) (tr_parseOS (T := T))
  have h1 : (getBrowserVersionString T).Tr 1 1 := by unfold getBrowserVersionString; tr0
  have h2 : (getEngineVersionString T).Tr 1 1 := by unfold getEngineVersionString; tr0
  have h3 : (getOSVersionString T).Tr 1 1 := by unfold getOSVersionString; tr0
  cases g with
  | userAgent => refine .map ?_; unfold getUserAgent; show M.Tr 0 0 _; tr0
  | clientType => refine .map ?_; unfold getClientType; show M.Tr 1 1 _; tr0
  | browser => refine .map ?_; unfold getBrowser; show M.Tr 1 1 _; tr0
  | browserVersion => refine .map ?_; unfold getBrowserVersion; show M.Tr 1 1 _; tr0
  | browserVersionString => exact .map h1
  | engine => refine .map ?_; unfold getEngine; show M.Tr 1 1 _; tr0
  | engineVersion => refine .map ?_; unfold getEngineVersion; show M.Tr 1 1 _; tr0
  | engineVersionString => exact .map h2
  | deviceType => refine .map ?_; unfold getDeviceType; show M.Tr 2 2 _; tr0
  | brand => refine .map ?_; unfold getBrand; show M.Tr 2 2 _; tr0
  | model => refine .map ?_; unfold getModel; show M.Tr 2 2 _; tr0
  | os => exact .map tr_getOS
  | osVersion => refine .map ?_; unfold getOSVersion; show M.Tr 1 1 _; tr0
  | osVersionString => exact .map h3

end
end Verif

import Verif.Proofs.Logic
/-
Locality of the detection code: which parts of a context each group of detection code reads and writes.
-/
namespace Verif

/-! ### Client group -/

/-- What client detection reads and writes. -/
structure ViewC where
  src : Bytes
  mask : ClientType
  clientType : ClientType
  clientName64 : Entry64
  clientVersion64 : Entry64
  engineName64 : Entry64
  engineVersion64 : Entry64
  verConst : Bool
  blink : Bool

def viewC (c : Ctx) : ViewC :=
  ⟨c.src, c.maskClientType, c.clientType, c.clientName64, c.clientVersion64, c.engineName64, c.engineVersion64,
    c.check flagVerConstSrc, c.check flagEngineForceBlink⟩

/-- Everything else. -/
def restC (c : Ctx) : Ctx :=
  { c with bits := 0, clientType := 0, clientName64 := 0, clientVersion64 := 0, engineName64 := 0, engineVersion64 := 0 }

def frameC (c c' : Ctx) : Prop := restC c' = restC c ∧ ∀ i, i ≠ flagVerConstSrc → i ≠ flagEngineForceBlink → c'.check i = c.check i

theorem frameC_refl (c : Ctx) : frameC c c := ⟨rfl, fun _ _ _ => rfl⟩
theorem frameC_trans (a b c : Ctx) (h1 : frameC a b) (h2 : frameC b c) : frameC a c :=
  ⟨h2.1.trans h1.1, fun i h h' => (h2.2 i h h').trans (h1.2 i h h')⟩

abbrev LocC {α : Type} (x : P α) : Prop := P.Sim viewC frameC x x

theorem locC_when {p : Prop} [Decidable p] {x : P Unit} (h : LocC x) : LocC (P.when p x) := by
  unfold P.when
  split
  · exact h
  · exact P.Sim.pure frameC_refl ()

theorem locC_pure {α : Type} (a : α) : LocC (pure a) := P.Sim.pure frameC_refl a
theorem locC_ofOption {α : Type} (o : Option α) : LocC (P.ofOption o) := P.Sim.ofOption frameC_refl o
theorem locC_bind {α β : Type} {x : P α} {f : α → P β} (h : LocC x) (hf : ∀ a, LocC (f a)) : LocC (x >>= f) :=
  P.Sim.bind frameC_trans h hf
theorem locC_set {f : Ctx → Ctx} (h : ∀ c d, viewC c = viewC d → viewC (f c) = viewC (f d)) (hf : ∀ c, restC (f c) = restC c)
    (hb : ∀ c i, i ≠ flagVerConstSrc → i ≠ flagEngineForceBlink → (f c).check i = c.check i) : LocC (P.modify f) :=
  P.Sim.modify h (fun c => ⟨hf c, hb c⟩)

theorem locC_flag (n : Nat) (h : n = flagVerConstSrc ∨ n = flagEngineForceBlink) : LocC (P.modify fun c => c.setBit n) := by
  refine locC_set ?_ (fun c => rfl) ?_
  · intro c d hcd
    rcases h with rfl | rfl
    · have h1 := congrArg ViewC.blink hcd
      simp [viewC] at hcd h1
      simp [viewC, Ctx.setBit, Ctx.check, Bitset.check_set, flagVerConstSrc, flagEngineForceBlink] at hcd h1 ⊢
      simp_all
    · simp [viewC, Ctx.setBit, Ctx.check, Bitset.check_set, flagVerConstSrc, flagEngineForceBlink] at hcd ⊢
      simp_all
  · intro c i h1 h2
    rcases h with rfl | rfl <;> simp [Ctx.setBit, Ctx.check, Bitset.check_set, flagVerConstSrc, flagEngineForceBlink] at h1 h2 ⊢ <;>
      intro h <;> omega

syntax "fieldC" : tactic
macro_rules | `(tactic| fieldC) => `(tactic| (
  refine locC_set ?_ (fun _ => rfl) (fun _ _ _ _ => rfl)
  intro c d hcd
  simp [viewC, Ctx.check] at hcd ⊢
  simp_all))

theorem locC_ctx {β : Type} {f : Ctx → P β} (h : ∀ c d, viewC c = viewC d → P.Sim viewC frameC (f c) (f d)) : LocC (P.ctx >>= f) :=
  P.Sim.ctx h

theorem locC_clientEvalVersion (re : Re) (x : ClientTuple) : LocC (clientEvalVersion re x) := by
  unfold clientEvalVersion
  refine locC_ctx fun c d hcd => ?_
  have hs : c.src = d.src := congrArg ViewC.src hcd
  simp only [hs]
  split
  · refine locC_bind ?_ (fun _ => locC_flag _ (.inl rfl))
    fieldC
  · split
    · split
      · refine locC_bind (locC_ofOption _) fun lo => locC_bind (locC_ofOption _) fun hi => ?_
        split
        · fieldC
        · exact locC_pure _
      · exact locC_pure _
    · exact locC_pure _

theorem locC_clientLoop (T : Tables) (ir : List ClientTuple) : LocC (clientLoop T ir) := by
  induction ir with
  | nil => exact locC_pure _
  | cons v ir ih =>
    unfold clientLoop
    refine locC_ctx fun c d hcd => ?_
    have hs : c.src = d.src := congrArg ViewC.src hcd
    simp only [hs]
    split
    · refine locC_bind (locC_ofOption _) fun re => ?_
      split
      · exact locC_bind (locC_clientEvalVersion re v) fun _ => locC_pure _
      · exact ih
    · refine locC_bind (locC_ofOption _) fun si => ?_
      split
      · exact locC_pure _
      · exact ih

theorem locC_engineLoop (T : Tables) (ir : List ClientTuple) : LocC (engineLoop T ir) := by
  induction ir with
  | nil => exact locC_pure _
  | cons v ir ih =>
    unfold engineLoop
    refine locC_ctx fun c d hcd => ?_
    have hs : c.src = d.src := congrArg ViewC.src hcd
    simp only [hs]
    split
    · refine locC_bind (locC_ofOption _) fun re => ?_
      split
      · exact locC_pure _
      · exact ih
    · refine locC_bind (locC_ofOption _) fun si => ?_
      split
      · exact locC_pure _
      · exact ih

theorem locC_engineFromRule (T : Tables) (x : ClientTuple) : LocC (engineFromRule T x) := by
  unfold engineFromRule
  refine locC_bind (locC_when ?_) fun _ => locC_when (locC_ctx fun c d hcd => ?_)
  · fieldC
  · have hs : c.src = d.src := congrArg ViewC.src hcd
    have hv : c.clientVersion64 = d.clientVersion64 := congrArg ViewC.clientVersion64 hcd
    simp only [hs, hv]
    refine locC_bind (locC_ofOption _) fun raw => locC_bind (locC_ofOption _) fun f => ?_
    fieldC

theorem locC_engineFromList (T : Tables) : LocC (engineFromList T) := by
  unfold engineFromList
  refine locC_ctx fun c d hcd => ?_
  have hs : c.engineName64 = d.engineName64 := congrArg ViewC.engineName64 hcd
  simp only [hs]
  split
  · refine locC_bind (locC_ofOption _) fun ir => locC_bind (locC_ofOption _) fun _ => locC_bind (locC_engineLoop T ir) fun x => ?_
    cases x with
    | none => exact locC_pure _
    | some e => dsimp only; fieldC
  · exact locC_pure _

theorem locC_engineEvalVersion (T : Tables) : LocC (engineEvalVersion T) := by
  unfold engineEvalVersion
  refine locC_ctx fun c d hcd => ?_
  have hs : c.src = d.src := congrArg ViewC.src hcd
  have hn : c.engineName64 = d.engineName64 := congrArg ViewC.engineName64 hcd
  simp only [hs, hn]
  split
  · split
    · refine locC_bind (locC_ofOption _) fun re => ?_
      split
      · refine locC_bind (locC_ofOption _) fun lo => locC_bind (locC_ofOption _) fun hi => ?_
        fieldC
      · exact locC_pure _
    · exact locC_pure _
  · exact locC_pure _

theorem locC_engineForceBlink (T : Tables) : LocC (engineForceBlink T) := by
  unfold engineForceBlink
  refine locC_ctx fun c d hcd => ?_
  have hs : c.src = d.src := congrArg ViewC.src hcd
  have hn : c.engineName64 = d.engineName64 := congrArg ViewC.engineName64 hcd
  simp only [hs, hn]
  split
  · exact locC_flag _ (.inr rfl)
  · exact locC_pure _

theorem locC_evalClient (T : Tables) (idx : Nat) : LocC (evalClient T idx) := by
  unfold evalClient evalEngine
  refine locC_bind (locC_ofOption _) fun ir => locC_bind (locC_ofOption _) fun _ => locC_bind (locC_clientLoop T ir) fun x => ?_
  cases x with
  | none => exact locC_pure _
  | some x =>
    dsimp only
    refine locC_bind ?_ fun _ => locC_bind (locC_when ?_) fun _ => locC_pure _
    · fieldC
    · exact locC_bind (locC_engineFromRule T x) fun _ => locC_bind (locC_engineFromList T) fun _ =>
          locC_bind (locC_engineEvalVersion T) fun _ => locC_engineForceBlink T

theorem locC_clientTry (T : Tables) (t : ClientType) (idx : Nat) (rest : P Bool) (hr : LocC rest) : LocC (clientTry T t idx rest) := by
  unfold clientTry
  refine locC_ctx fun c d hcd => ?_
  have hs : c.maskClientType = d.maskClientType := congrArg ViewC.mask hcd
  simp only [hs]
  split
  · refine locC_bind (locC_evalClient T idx) fun b => ?_
    split
    · refine locC_bind ?_ fun _ => locC_pure _
      fieldC
    · exact hr
  · exact hr

theorem locC_detectClient (T : Tables) : LocC (detectClient T) := by
  unfold detectClient
  repeat apply locC_clientTry
  exact locC_pure _

/-! ### OS group -/

/-- What OS detection reads and writes. -/
structure ViewO where
  src : Bytes
  osName64 : Entry64
  osVersion64 : Entry64
  bufSrc : Bool
  verBufSrc : Bool

def viewO (c : Ctx) : ViewO := ⟨c.src, c.osName64, c.osVersion64, c.check flagOSBufSrc, c.check flagOSVerBufSrc⟩

def restO (c : Ctx) : Ctx := { c with bits := 0, osName64 := 0, osVersion64 := 0 }

def frameO (c c' : Ctx) : Prop := restO c' = restO c ∧ ∀ i, i ≠ flagOSBufSrc → i ≠ flagOSVerBufSrc → c'.check i = c.check i

theorem frameO_refl (c : Ctx) : frameO c c := ⟨rfl, fun _ _ _ => rfl⟩
theorem frameO_trans (a b c : Ctx) (h1 : frameO a b) (h2 : frameO b c) : frameO a c :=
  ⟨h2.1.trans h1.1, fun i h h' => (h2.2 i h h').trans (h1.2 i h h')⟩

abbrev LocO {α : Type} (x : P α) : Prop := P.Sim viewO frameO x x

theorem locO_when {p : Prop} [Decidable p] {x : P Unit} (h : LocO x) : LocO (P.when p x) := by
  unfold P.when
  split
  · exact h
  · exact P.Sim.pure frameO_refl ()

theorem locO_pure {α : Type} (a : α) : LocO (pure a) := P.Sim.pure frameO_refl a
theorem locO_ofOption {α : Type} (o : Option α) : LocO (P.ofOption o) := P.Sim.ofOption frameO_refl o
theorem locO_bind {α β : Type} {x : P α} {f : α → P β} (h : LocO x) (hf : ∀ a, LocO (f a)) : LocO (x >>= f) :=
  P.Sim.bind frameO_trans h hf
theorem locO_set {f : Ctx → Ctx} (h : ∀ c d, viewO c = viewO d → viewO (f c) = viewO (f d)) (hf : ∀ c, restO (f c) = restO c)
    (hb : ∀ c i, i ≠ flagOSBufSrc → i ≠ flagOSVerBufSrc → (f c).check i = c.check i) : LocO (P.modify f) :=
  P.Sim.modify h (fun c => ⟨hf c, hb c⟩)
theorem locO_ctx {β : Type} {f : Ctx → P β} (h : ∀ c d, viewO c = viewO d → P.Sim viewO frameO (f c) (f d)) : LocO (P.ctx >>= f) :=
  P.Sim.ctx h

theorem locO_flag (n : Nat) (h : n = flagOSBufSrc ∨ n = flagOSVerBufSrc) : LocO (P.modify fun c => c.setBit n) := by
  refine locO_set ?_ (fun c => rfl) ?_
  · intro c d hcd
    rcases h with rfl | rfl <;>
    · simp [viewO, Ctx.setBit, Ctx.check, Bitset.check_set, flagOSBufSrc, flagOSVerBufSrc] at hcd ⊢
      simp_all
  · intro c i h1 h2
    rcases h with rfl | rfl <;> simp [Ctx.setBit, Ctx.check, Bitset.check_set, flagOSBufSrc, flagOSVerBufSrc] at h1 h2 ⊢ <;>
      intro h <;> omega

syntax "fieldO" : tactic
macro_rules | `(tactic| fieldO) => `(tactic| (
  refine locO_set ?_ (fun _ => rfl) (fun _ _ _ _ => rfl)
  intro c d hcd
  simp [viewO, Ctx.check] at hcd ⊢
  simp_all))

theorem locO_osVerLoop (T : Tables) (rv : List OSVersionTuple) : LocO (osVerLoop T rv) := by
  induction rv with
  | nil => exact locO_pure _
  | cons v rv ih =>
    unfold osVerLoop
    refine locO_ctx fun c d hcd => ?_
    have hs : c.src = d.src := congrArg ViewO.src hcd
    simp only [hs]
    have hset : LocO (do P.modify fun c => { c with osVersion64 := v.version64 }
                         P.modify fun c => c.setBit flagOSVerBufSrc) := by
      refine locO_bind ?_ fun _ => locO_flag _ (.inr rfl)
      fieldO
    split
    · refine locO_bind (locO_ofOption _) fun re => ?_
      split
      · split
        · split
          · refine locO_bind (locO_ofOption _) fun lo => locO_bind (locO_ofOption _) fun hi => ?_
            split
            · fieldO
            · exact locO_pure _
          · exact locO_pure _
        · exact hset
      · exact ih
    · split
      · refine locO_bind (locO_ofOption _) fun si => ?_
        split
        · exact hset
        · exact ih
      · exact ih

theorem locO_osEvalVer (T : Tables) (r : Entry64) : LocO (osEvalVer T r) := by
  unfold osEvalVer
  exact locO_bind (locO_ofOption _) fun rv => locO_bind (locO_ofOption _) fun _ => locO_osVerLoop T rv

theorem locO_osEvalMatch (re : Re) (x : OSTuple) : LocO (osEvalMatch re x) := by
  unfold osEvalMatch
  refine locO_ctx fun c d hcd => ?_
  have hs : c.src = d.src := congrArg ViewO.src hcd
  generalize c.src = s at hs ⊢
  subst hs
  refine locO_bind ?_ fun _ => ?_
  · fieldO
  · refine locO_when (locO_bind (locO_when ?_) fun _ => locO_when ?_)
    · refine locO_bind (locO_ofOption _) fun lo => locO_bind (locO_ofOption _) fun hi => locO_when ?_
      refine locO_bind ?_ fun _ => locO_flag _ (.inl rfl)
      fieldO
    · refine locO_bind (locO_ofOption _) fun lo => locO_bind (locO_ofOption _) fun hi => locO_when ?_
      fieldO

theorem locO_osLoop (T : Tables) (a b : Bool) (r : List OSTuple) : LocO (osLoop T a b r) := by
  induction r with
  | nil => exact locO_pure _
  | cons v r ih =>
    unfold osLoop
    refine locO_ctx fun c d hcd => ?_
    have hs : c.src = d.src := congrArg ViewO.src hcd
    simp only [hs]
    split
    · refine locO_bind (locO_ofOption _) fun re => ?_
      split
      · exact ih
      · split
        · exact ih
        · split
          · exact locO_bind (locO_osEvalMatch re v) fun _ => locO_bind (locO_when (locO_osEvalVer T _)) fun _ => locO_pure _
          · exact ih
    · split
      · refine locO_bind (locO_ofOption _) fun si => ?_
        split
        · refine locO_bind ?_ fun _ => locO_pure _
          fieldO
        · exact ih
      · exact ih

theorem locO_detectOS (T : Tables) : LocO (detectOS T) := by
  unfold detectOS
  refine locO_bind (locO_ofOption _) fun _ => locO_ctx fun c d hcd => ?_
  have hs : c.src = d.src := congrArg ViewO.src hcd
  simp only [hs]
  refine locO_bind (locO_osLoop T _ _ _) fun x => ?_
  cases x with
  | none => exact locO_pure _
  | some x =>
    dsimp only
    refine locO_bind (locO_when ?_) fun _ => locO_pure _
    refine locO_bind ?_ fun _ => locO_flag _ (.inr rfl)
    fieldO

/-! ### Device group -/

/-- What device detection reads and writes, apart from the model buffer. -/
structure ViewD where
  src : Bytes
  mask : DeviceType
  deviceType : DeviceType
  brandName64 : Entry64
  force : Bool
  vendor : Bool

def viewD (c : Ctx) : ViewD :=
  ⟨c.src, c.maskDeviceType, c.deviceType, c.brandName64, c.check flagDeviceForceDesktop, c.check flagVendorFragment⟩

def restD (c : Ctx) : Ctx := { c with bits := 0, deviceType := 0, brandName64 := 0, modelName64 := 0, buf := [], writes := [] }

def frameD (c c' : Ctx) : Prop := restD c' = restD c ∧ c'.bits = c.bits

theorem frameD_refl (c : Ctx) : frameD c c := ⟨rfl, rfl⟩
theorem frameD_trans (a b c : Ctx) (h1 : frameD a b) (h2 : frameD b c) : frameD a c := ⟨h2.1.trans h1.1, h2.2.trans h1.2⟩

abbrev LocD {α : Type} (x : P α) : Prop := P.Sim viewD frameD x x

theorem locD_when {p : Prop} [Decidable p] {x : P Unit} (h : LocD x) : LocD (P.when p x) := by
  unfold P.when
  split
  · exact h
  · exact P.Sim.pure frameD_refl ()

theorem locD_pure {α : Type} (a : α) : LocD (pure a) := P.Sim.pure frameD_refl a
theorem locD_ofOption {α : Type} (o : Option α) : LocD (P.ofOption o) := P.Sim.ofOption frameD_refl o
theorem simD_bind {α β : Type} {x y : P α} {f g : α → P β} (h : P.Sim viewD frameD x y) (hf : ∀ a, P.Sim viewD frameD (f a) (g a)) :
    P.Sim viewD frameD (x >>= f) (y >>= g) := P.Sim.bind frameD_trans h hf
theorem locD_bind {α β : Type} {x : P α} {f : α → P β} (h : LocD x) (hf : ∀ a, LocD (f a)) : LocD (x >>= f) :=
  simD_bind h hf
theorem locD_set {f : Ctx → Ctx} (h : ∀ c d, viewD c = viewD d → viewD (f c) = viewD (f d)) (hf : ∀ c, restD (f c) = restD c)
    (hb : ∀ c, (f c).bits = c.bits) : LocD (P.modify f) :=
  P.Sim.modify h (fun c => ⟨hf c, hb c⟩)
theorem locD_ctx {β : Type} {f : Ctx → P β} (h : ∀ c d, viewD c = viewD d → P.Sim viewD frameD (f c) (f d)) : LocD (P.ctx >>= f) :=
  P.Sim.ctx h

syntax "fieldD" : tactic
macro_rules | `(tactic| fieldD) => `(tactic| (
  refine locD_set ?_ (fun _ => rfl) (fun _ => rfl)
  intro c d hcd
  simp [viewD, Ctx.check] at hcd ⊢
  simp_all))

theorem locD_bufAppend (s : Bytes) : LocD (bufAppend s) := by unfold bufAppend; fieldD

theorem simD_model (a b : Entry64) :
    P.Sim viewD frameD (P.modify fun d => { d with modelName64 := a }) (P.modify fun d => { d with modelName64 := b }) := by
  refine P.Sim.modify ?_ (fun c => ⟨rfl, rfl⟩)
  intro c d hcd
  simpa [viewD, Ctx.check] using hcd

theorem locD_bufModel (raw : Bytes) : LocD (bufModel raw) := by
  unfold bufModel
  refine locD_ctx fun c d hcd => ?_
  refine simD_bind (locD_bufAppend raw) fun _ => P.Sim.ctx fun c' d' h' => ?_
  exact simD_model _ _

theorem locD_mneLoop (raw : Bytes) (m : List Int) (src : Bytes) (fuel p : Nat) : LocD (mneLoop raw m src fuel p) := by
  induction fuel generalizing p with
  | zero => exact locD_ofOption _
  | succ fuel ih =>
    unfold mneLoop
    refine locD_bind (locD_ofOption _) fun p1 => ?_
    dsimp only
    split
    · exact locD_pure _
    · refine locD_bind (locD_ofOption _) fun lo => locD_bind (locD_ofOption _) fun hi => ?_
      split
      · exact locD_pure _
      · refine locD_bind (locD_ofOption _) fun r => locD_bind (locD_bufAppend r) fun _ => ?_
        split
        · exact locD_bind (locD_when (locD_bufAppend _)) fun _ => ih _
        · exact locD_bufAppend _

theorem locD_deviceBufMNE (T : Tables) (e : Entry64) : LocD (deviceBufMNE T e) := by
  unfold deviceBufMNE
  exact locD_bind (locD_ofOption _) fun raw => locD_bufModel raw

theorem locD_deviceBufMNE1 (T : Tables) (e : Entry64) (re : Re) : LocD (deviceBufMNE1 T e re) := by
  unfold deviceBufMNE1
  refine locD_bind (locD_ofOption _) fun raw => ?_
  split
  · refine locD_ctx fun c d hcd => ?_
    have hs : c.src = d.src := congrArg ViewD.src hcd
    simp only [hs]
    refine simD_bind (locD_bufAppend _) fun _ => simD_bind (locD_mneLoop _ _ _ _ _) fun _ => P.Sim.ctx fun c' d' h' => ?_
    exact simD_model _ _
  · exact locD_bufModel raw

theorem locD_deviceLoop (T : Tables) (ir : List DeviceTuple) : LocD (deviceLoop T ir) := by
  induction ir with
  | nil => exact locD_pure _
  | cons v ir ih =>
    unfold deviceLoop
    refine locD_ctx fun c d hcd => ?_
    have hs : c.src = d.src := congrArg ViewD.src hcd
    simp only [hs]
    split
    · refine locD_bind (locD_ofOption _) fun re => ?_
      split
      · exact locD_pure _
      · exact ih
    · refine locD_bind (locD_ofOption _) fun si => ?_
      split
      · exact locD_pure _
      · exact ih

theorem locD_modelLoop (T : Tables) (x : DeviceTuple) (t : DeviceType) (n i : Nat) : LocD (modelLoop T x t n i) := by
  induction n generalizing i with
  | zero => exact locD_pure _
  | succ n ih =>
    unfold modelLoop
    refine locD_ctx fun c d hcd => ?_
    have hs : c.src = d.src := congrArg ViewD.src hcd
    simp only [hs]
    refine locD_bind (locD_ofOption _) fun m => ?_
    split
    · refine locD_bind (locD_ofOption _) fun re => ?_
      split
      · exact locD_bind (locD_deviceBufMNE1 T _ re) fun _ => locD_ofOption _
      · exact ih _
    · split
      · refine locD_bind (locD_ofOption _) fun re => ?_
        split
        · exact locD_bind (locD_deviceBufMNE T _) fun _ => locD_ofOption _
        · exact ih _
      · exact ih _

theorem locD_deviceFill (T : Tables) (x : DeviceTuple) (t : DeviceType) : LocD (deviceFill T x t) := by
  unfold deviceFill
  refine locD_bind ?_ fun _ => ?_
  · fieldD
  · split
    · refine locD_bind (locD_ofOption _) fun sm => locD_bind ?_ fun _ => locD_ofOption _
      split
      · exact locD_bind (locD_ofOption _) fun re => locD_deviceBufMNE1 T _ re
      · exact locD_deviceBufMNE T _
    · split
      · exact locD_modelLoop T x t _ _
      · exact locD_ofOption _

theorem locD_evalDeviceBody (T : Tables) (idx : Nat) (t : DeviceType) : LocD (evalDeviceBody T idx t) := by
  unfold evalDeviceBody
  refine locD_bind (locD_ofOption _) fun ir => locD_bind (locD_ofOption _) fun _ => locD_bind (locD_deviceLoop T ir) fun x => ?_
  cases x with
  | none => exact locD_pure _
  | some x => exact locD_bind (locD_deviceFill T x t) fun _ => locD_pure _

/-! ### Vendor fragments and fall-backs -/

/-- The brand a getter reports, read off the context. -/
def brandOf (c : Ctx) : Option (Entry64 × Bool) :=
  if c.brandName64 = 0 then none else some (c.brandName64, c.check flagVendorFragment)

/-- The part of the state that vendor detection depends on. -/
def viewV (c : Ctx) : Bytes × Option (Entry64 × Bool) := (c.src, brandOf c)

/-- Vendor detection writes only the brand and its flag. -/
def frameV (c c' : Ctx) : Prop :=
  { c' with bits := 0, brandName64 := 0 } = { c with bits := 0, brandName64 := 0 } ∧
  ∀ i, i ≠ flagVendorFragment → c'.check i = c.check i

theorem frameV_refl (c : Ctx) : frameV c c := ⟨rfl, fun _ _ => rfl⟩
theorem frameV_trans (a b c : Ctx) (h1 : frameV a b) (h2 : frameV b c) : frameV a c :=
  ⟨h2.1.trans h1.1, fun i h => (h2.2 i h).trans (h1.2 i h)⟩

abbrev LocV {α : Type} (x : P α) : Prop := P.Sim viewV frameV x x

theorem locV_bind {α β : Type} {x : P α} {f : α → P β} (h : LocV x) (hf : ∀ a, LocV (f a)) : LocV (x >>= f) :=
  P.Sim.bind frameV_trans h hf

theorem locV_found (b : Entry64) : LocV (do P.modify fun c => { c with brandName64 := b }
                                            P.modify fun c => c.setBit flagVendorFragment) := by
  intro c d hcd
  simp only [viewV, Prod.mk.injEq] at hcd
  simp only [P.modify_bind, P.modify_apply]
  refine ⟨trivial, ?_, rfl, ?_⟩
  · simp [viewV, brandOf, Ctx.setBit, hcd.1, Ctx.check, Bitset.check_set, flagVendorFragment]
  · intro i hi
    rw [Ctx.check_setBit _ _ _ (by decide)]
    simp [Ctx.check, Ne.symm hi]

theorem locV_vendorFragLoop (T : Tables) (b : VendorTuple) (n j : Nat) : LocV (vendorFragLoop T b n j) := by
  induction n generalizing j with
  | zero => exact P.Sim.pure frameV_refl _
  | succ n ih =>
    unfold vendorFragLoop
    refine P.Sim.ctx fun c d hcd => ?_
    have hs : c.src = d.src := congrArg Prod.fst hcd
    generalize c.src = s at hs ⊢
    subst hs
    refine locV_bind (P.Sim.ofOption frameV_refl _) fun re => locV_bind ?_ fun _ => ih _
    unfold P.when
    split
    · exact locV_found _
    · exact P.Sim.pure frameV_refl _

theorem locV_vendorLoop (T : Tables) (r : List VendorTuple) : LocV (vendorLoop T r) := by
  induction r with
  | nil => exact P.Sim.pure frameV_refl _
  | cons b r ih =>
    unfold vendorLoop
    exact locV_bind (locV_vendorFragLoop T b _ _) fun _ => ih

end Verif

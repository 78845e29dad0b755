import Verif.Proofs.DetectDevice
import Verif.Props.Version
/-
What each getter answers, in terms of detection outcomes, under any honest cache.
-/
namespace Verif

/-! ### Answers as functions of outcomes -/

/-- Hint hash of a request. -/
def Req.hint (H : Bytes → UInt64) (q : Req) : UInt64 := if q.header = [] then 0 else H q.header

/-- What GetBrowser makes of the hint and the client results. -/
def browserText (T : Tables) (hint : UInt64) (g : GC) : Option Bytes :=
  let eb : Entry64 × Bytes :=
    if hint ≠ 0 then
      match T.hrIdx hint with
      | some he => (he, T.hrBuf)
      | none => (0, [])
    else if g.clientName64 > 0 then (g.clientName64, T.crBuf)
    else (0, [])
  if eb.1 > 0 then sliceE? eb.2 eb.1 else some unknown

/-- What GetEngine makes of the client results. -/
def engineText (T : Tables) (g : GC) : Option Bytes :=
  if g.blink = true then some (ascii "Blink") else if g.engineName64 > 0 then sliceE? T.crBuf g.engineName64 else some []

/-- What GetBrand makes of the device results. -/
def brandText (T : Tables) : Option (Entry64 × Bool) → Option Bytes
  | none => some unknown
  | some (b, v) => (sliceE? (if v then T.vrBuf else T.drBuf) b).map (trim 32)

/-- Answer of a getter from detection outcomes. (GetModel is not described here.) -/
def outAns (T : Tables) (H : Bytes → UInt64) (q : Req) : Getter → Option Ans
  | .userAgent => some (.text q.ua)
  | .clientType => (clientOut T q.mc q.ua).map fun g => .clientType g.clientType
  | .browser => ((clientOut T q.mc q.ua).bind (browserText T (q.hint H))).map .text
  | .browserVersionString => ((clientOut T q.mc q.ua).bind (browserVerText T q.ua)).map .text
  | .browserVersion => ((clientOut T q.mc q.ua).bind (browserVerText T q.ua)).map fun raw => .version (({} : Version).parse raw).1
  | .engine => ((clientOut T q.mc q.ua).bind (engineText T)).map .text
  | .engineVersionString => ((clientOut T q.mc q.ua).bind (engineVerText q.ua)).map .text
  | .engineVersion => ((clientOut T q.mc q.ua).bind (engineVerText q.ua)).map fun raw => .version (({} : Version).parse raw).1
  | .deviceType => (devOut T q.md q.ua).map fun o => .deviceType o.1
  | .brand => ((devOut T q.md q.ua).bind fun o => brandText T o.2).map .text
  | .model => none
  | .os => (osAns T q.ua).map .text
  | .osVersionString => ((osOut T q.ua).bind (osVerText T q.ua)).map .text
  | .osVersion => ((osOut T q.ua).bind (osVerText T q.ua)).map fun raw => .version (({} : Version).parse raw).1

/-- The getters whose answer depends on client, OS, device detection. -/
def Getter.isC : Getter → Bool
  | .clientType | .browser | .browserVersion | .browserVersionString | .engine | .engineVersion | .engineVersionString => true
  | _ => false
def Getter.isD : Getter → Bool
  | .deviceType | .brand | .model => true
  | _ => false
def Getter.isO : Getter → Bool
  | .os | .osVersion | .osVersionString => true
  | _ => false
/-- The getters returning a parsed version. -/
def Getter.isV : Getter → Bool
  | .browserVersion | .engineVersion | .osVersion => true
  | _ => false

section
variable {T : Tables} {MC : Bytes → ClientType → Prop} {MD : Bytes → DeviceType → Prop} {H : Bytes → UInt64}

theorem CInv.buf {q : Req} {c : Ctx} (h : CInv T MC MD H q c) (b : Bytes) (w : List BufOp) : CInv T MC MD H q { c with buf := b, writes := w } :=
  ⟨h.src, h.mc, h.md, h.hint, h.inv, h.bv, h.ev, h.ov⟩

theorem CInv.hint' {q : Req} {c : Ctx} (h : CInv T MC MD H q c) : c.hintHash = q.hint H := h.hint

/-- Post-condition of a text-valued client getter. -/
def PostC {α : Type} (T : Tables) (MC : Bytes → ClientType → Prop) (MD : Bytes → DeviceType → Prop) (H : Bytes → UInt64) (q : Req)
    (f : GC → Option α) (r : Option α) (c : Ctx) : Prop :=
  CInv T MC MD H q c ∧ (GoodC T MC q.ua → ∃ m g, MC q.ua m ∧ clientOut T m q.ua = some g ∧ r = f g)

theorem tri_clientReader {α : Type} {q : Req} (hm : MC q.ua q.mc) (rest : M α) (f : GC → Option α)
    (hrest : ∀ c, CInv T MC MD H q c → rest c = .ret (c, f (eC (ent c)))) :
    M.Tri (RG T MC MD) (Inv T MC MD) (CInv T MC MD H q) (do ensure flagClientDetect (parseClient T); rest) (PostC T MC MD H q f) := by
  refine tri_reader flagClientDetect _ _ _ _ (tri_parseClient hm) (fun c hc hbad => ⟨hc, fun h => absurd h hbad⟩) ?_
  rintro c ⟨hc, hb⟩
  rw [hrest c hc]
  refine ⟨hc, fun hg => ?_⟩
  obtain ⟨m, h1, h2⟩ := clientOut_of hc hb hg
  exact ⟨m, _, h1, h2, rfl⟩

theorem tri_getClientType {q : Req} (hm : MC q.ua q.mc) :
    M.Tri (RG T MC MD) (Inv T MC MD) (CInv T MC MD H q) (getClientType T) (PostC T MC MD H q fun g => some g.clientType) :=
  tri_clientReader hm _ _ fun _ _ => rfl

theorem tri_getBrowser {q : Req} (hm : MC q.ua q.mc) :
    M.Tri (RG T MC MD) (Inv T MC MD) (CInv T MC MD H q) (getBrowser T) (PostC T MC MD H q (browserText T (q.hint H))) := by
  unfold getBrowser
  refine tri_clientReader hm _ _ fun c hc => ?_
  rw [M.ctx_bind, browserText, ← hc.hint']
  have e1 : (eC (ent c)).clientName64 = c.clientName64 := rfl
  rw [e1]
  have key : ∀ eb : Entry64 × Bytes, (if eb.1 > 0 then M.ofOption (sliceE? eb.2 eb.1) else pure unknown : M Bytes) c =
      .ret (c, if eb.1 > 0 then sliceE? eb.2 eb.1 else some unknown) := by
    intro eb
    split <;> rfl
  exact key _

theorem tri_getBrowserVersionString {q : Req} (hm : MC q.ua q.mc) :
    M.Tri (RG T MC MD) (Inv T MC MD) (CInv T MC MD H q) (getBrowserVersionString T) (PostC T MC MD H q (browserVerText T q.ua)) := by
  unfold getBrowserVersionString
  refine tri_clientReader hm _ _ fun c hc => ?_
  rw [M.ctx_bind, browserVerText, ← hc.src]
  have e1 : (eC (ent c)).clientVersion64 = c.clientVersion64 := rfl
  have e2 : (eC (ent c)).verConst = c.check flagVerConstSrc := rfl
  rw [e1, e2]
  split
  · dsimp only
    cases sliceE? (if c.check flagVerConstSrc = true then T.crBuf else c.src) c.clientVersion64 <;> rfl
  · rfl

theorem tri_getEngine {q : Req} (hm : MC q.ua q.mc) :
    M.Tri (RG T MC MD) (Inv T MC MD) (CInv T MC MD H q) (getEngine T) (PostC T MC MD H q (engineText T)) := by
  unfold getEngine
  refine tri_clientReader hm _ _ fun c hc => ?_
  rw [M.ctx_bind, engineText]
  have e1 : (eC (ent c)).engineName64 = c.engineName64 := rfl
  have e2 : (eC (ent c)).blink = c.check flagEngineForceBlink := rfl
  rw [e1, e2]
  split
  · rfl
  · split
    · rfl
    · rfl

theorem tri_getEngineVersionString {q : Req} (hm : MC q.ua q.mc) :
    M.Tri (RG T MC MD) (Inv T MC MD) (CInv T MC MD H q) (getEngineVersionString T) (PostC T MC MD H q (engineVerText q.ua)) := by
  unfold getEngineVersionString
  refine tri_clientReader hm _ _ fun c hc => ?_
  rw [M.ctx_bind, engineVerText, ← hc.src]
  have e1 : (eC (ent c)).engineVersion64 = c.engineVersion64 := rfl
  rw [e1]
  split
  · rfl
  · rfl

theorem parse_twice (v : Version) (s : Bytes) : ((v.parse s).1.parse s).1 = (v.parse s).1 := by
  cases h : (v.parse s).2 with
  | false => rw [(C34_latched v s s h).1]
  | true => rw [C34_failed_again v s h]

/-- If only one text is ever parsed, the version is that of a single parse. -/
theorem ParsedFrom.single {R : Bytes → Prop} {v : Version} (h : ParsedFrom R v) {raw : Bytes} (hR : ∀ r, R r → r = raw) :
    v = {} ∨ v = (({} : Version).parse raw).1 := by
  induction h with
  | zero => exact .inl rfl
  | parse h hr ih =>
    right
    rw [hR _ hr]
    rcases ih with ih | ih
    · rw [ih]
    · rw [ih, parse_twice]

/-- Post-condition of a version getter. -/
def PostV (T : Tables) (MC : Bytes → ClientType → Prop) (MD : Bytes → DeviceType → Prop) (H : Bytes → UInt64) (q : Req)
    (Good Uni Bad : Prop) (text : Option Bytes) (R : Bytes → Prop) (r : Option Version) (c : Ctx) : Prop :=
  CInv T MC MD H q c ∧ (Good → Uni → (∀ x, R x → text = some x) → r = text.map fun raw => (({} : Version).parse raw).1) ∧
    (Good → r = none → Bad)

/-- Common shape of the three version getters. -/
theorem tri_version {q : Req} (get : Ctx → Version) (put : Ctx → Version → Ctx) (str : M Bytes) (Good Uni Bad : Prop) (text : Option Bytes)
    (R : Bytes → Prop) (post : Option Bytes → Ctx → Prop)
    (hput : ∀ c v, get (put c v) = v)
    (hpre : ∀ c, CInv T MC MD H q c → Good → ParsedFrom R (get c))
    (hset : ∀ c v, CInv T MC MD H q c → (Good → ParsedFrom R v) → CInv T MC MD H q (put c v))
    (hstr : M.Tri (RG T MC MD) (Inv T MC MD) (CInv T MC MD H q) str post)
    (hpost : ∀ r c, post r c → CInv T MC MD H q c ∧ (Good → ((∃ x, r = some x ∧ R x) ∨ (r = none ∧ Bad ∧ (Uni → text = none))))) :
    M.Tri (RG T MC MD) (Inv T MC MD) (CInv T MC MD H q)
      (do
        let c ← M.ctx
        M.when (¬ (get c).p = true) do
          let raw ← str
          M.modify fun c => put c ((get c).parse raw).1
        let c ← M.ctx
        pure (get c)) (PostV T MC MD H q Good Uni Bad text R) := by
  intro c hc
  rw [M.ctx_bind]
  unfold M.when
  split
  · rename_i hp
    rw [M.bind_apply, M.bind_apply, Prog.bind_assoc]
    refine (hstr c hc).bind ?_
    rintro ⟨c', _ | raw⟩ h
    · obtain ⟨h1, h2⟩ := hpost _ _ h
      refine ⟨h1, fun hg hu hR => ?_, fun hg _ => ?_⟩
      · rcases h2 hg with ⟨x, hx, _⟩ | ⟨_, _, hx⟩
        · cases hx
        · rw [hx hu]; rfl
      · rcases h2 hg with ⟨x, hx, _⟩ | ⟨_, hx, _⟩
        · cases hx
        · exact hx
    · obtain ⟨h1, h2⟩ := hpost _ _ h
      have hR' : Good → R raw := by
        intro hg
        rcases h2 hg with ⟨x, hx, hr⟩ | ⟨hx, _⟩
        · cases hx; exact hr
        · cases hx
      have hpf : Good → ParsedFrom R ((get c').parse raw).1 := fun hg => .parse (hpre c' h1 hg) (hR' hg)
      refine ⟨hset c' _ h1 hpf, fun hg hu hR => ?_, fun _ h => by cases h⟩
      have e := hR raw (hR' hg)
      show some (get (put c' _)) = _
      rw [hput, e]
      rcases (hpre c' h1 hg).single (fun r hr => by have := hR r hr; rw [e] at this; exact (Option.some.inj this).symm) with hv | hv
      · rw [hv]; rfl
      · rw [hv, parse_twice]; rfl
  · rename_i hp
    refine ⟨hc, fun hg hu hR => ?_, fun _ h => by cases h⟩
    show some (get c) = _
    cases hx : text with
    | none =>
      have : get c = {} := by
        have hp := hpre c hc hg
        generalize get c = v at hp ⊢
        cases hp with
        | zero => rfl
        | parse _ hr => have := hR _ hr; rw [hx] at this; cases this
      rw [this] at hp; simp at hp
    | some x =>
      rcases (hpre c hc hg).single (fun r hr => by have := hR r hr; rw [hx] at this; exact (Option.some.inj this).symm) with hv | hv
      · rw [hv] at hp; simp at hp
      · rw [hv]; rfl

theorem PostC.text {q : Req} {f : GC → Option Bytes} {mc : ClientType} {R : Bytes → Prop} 
    (hR : ∀ m g raw, MC q.ua m → clientOut T m q.ua = some g → f g = some raw → R raw)
    (r : Option Bytes) (c : Ctx) (h : PostC T MC MD H q f r c) :
    CInv T MC MD H q c ∧ (GoodC T MC q.ua → ((∃ x, r = some x ∧ R x) ∨
      (r = none ∧ (∃ m, MC q.ua m ∧ (clientOut T m q.ua).bind f = none) ∧ ((∀ m, MC q.ua m → m = mc) → (clientOut T mc q.ua).bind f = none)))) := by
  refine ⟨h.1, fun hg => ?_⟩
  obtain ⟨m, g, h1, h2, h3⟩ := h.2 hg
  cases hr : r with
  | some x => exact .inl ⟨x, rfl, hR m g x h1 h2 (by rw [← h3, hr])⟩
  | none =>
    right
    have hn : (clientOut T m q.ua).bind f = none := by
      rw [h2]
      show f g = none
      rw [← h3, hr]
    refine ⟨rfl, ⟨m, h1, hn⟩, fun huni => ?_⟩
    rw [← huni m h1, hn]

theorem tri_getBrowserVersion {q : Req} (hm : MC q.ua q.mc) :
    M.Tri (RG T MC MD) (Inv T MC MD) (CInv T MC MD H q) (getBrowserVersion T)
      (PostV T MC MD H q (GoodC T MC q.ua) (∀ m, MC q.ua m → m = q.mc) (∃ m, MC q.ua m ∧ (clientOut T m q.ua).bind (browserVerText T q.ua) = none) ((clientOut T q.mc q.ua).bind (browserVerText T q.ua)) (BrowserRaw T MC q.ua)) :=
  tri_version (fun c => c.clientVersion) (fun c v => { c with clientVersion := v }) _ _ _ _ _ _ _ (fun _ _ => rfl) (fun _ h => h.bv)
    (fun _ _ h hv => ⟨h.src, h.mc, h.md, h.hint, h.inv, hv, h.ev, h.ov⟩) (tri_getBrowserVersionString hm)
    (PostC.text (fun m g _ h1 h2 h3 => ⟨m, g, h1, h2, h3⟩))

theorem tri_getEngineVersion {q : Req} (hm : MC q.ua q.mc) :
    M.Tri (RG T MC MD) (Inv T MC MD) (CInv T MC MD H q) (getEngineVersion T)
      (PostV T MC MD H q (GoodC T MC q.ua) (∀ m, MC q.ua m → m = q.mc) (∃ m, MC q.ua m ∧ (clientOut T m q.ua).bind (engineVerText q.ua) = none) ((clientOut T q.mc q.ua).bind (engineVerText q.ua)) (EngineRaw T MC q.ua)) :=
  tri_version (fun c => c.engineVersion) (fun c v => { c with engineVersion := v }) _ _ _ _ _ _ _ (fun _ _ => rfl) (fun _ h => h.ev)
    (fun _ _ h hv => ⟨h.src, h.mc, h.md, h.hint, h.inv, h.bv, hv, h.ov⟩) (tri_getEngineVersionString hm)
    (PostC.text (fun m g _ h1 h2 h3 => ⟨m, g, h1, h2, h3⟩))

theorem map_under_id {raw : Bytes} (h : ¬ (indexByte raw 95).isSome = true) : raw.map (fun b => if b = 95 then 46 else b) = raw := by
  have hn : (95 : UInt8) ∉ raw := by
    intro hm
    apply h
    simp only [indexByte, List.findIdx?_isSome, List.any_eq_true]
    exact ⟨95, hm, by simp⟩
  rw [List.map_congr_left (g := id), List.map_id]
  intro b hb
  have : b ≠ 95 := fun h => hn (h ▸ hb)
  rw [if_neg this]; rfl

theorem tri_getOSVersionString {q : Req} :
    M.Tri (RG T MC MD) (Inv T MC MD) (CInv T MC MD H q) (getOSVersionString T)
      (fun r c => CInv T MC MD H q c ∧ (GoodO T q.ua → r = (osOut T q.ua).bind (osVerText T q.ua))) := by
  unfold getOSVersionString
  refine tri_reader flagOSDetect _ _ _ _ tri_parseOS (fun c hc hbad => ⟨hc, fun h => absurd h hbad⟩) ?_
  rintro c ⟨hc, hb⟩
  rw [M.ctx_bind]
  have hans : GoodO T q.ua → (osOut T q.ua).bind (osVerText T q.ua) = osVerText T q.ua (eO (ent c)) := by
    intro hg; rw [osOut_of hc hb hg]; rfl
  have e1 : (eO (ent c)).osVersion64 = c.osVersion64 := rfl
  have e2 : (eO (ent c)).verBufSrc = c.check flagOSVerBufSrc := rfl
  split
  · rename_i hz
    have hans' : GoodO T q.ua → (osOut T q.ua).bind (osVerText T q.ua) =
        (sliceE? (if c.check flagOSVerBufSrc = true then T.orBuf else c.src) c.osVersion64).map fun raw => raw.map fun b => if b = 95 then 46 else b := by
      intro hg
      rw [hans hg, osVerText, e1, e2, if_pos hz, hc.src]
    dsimp only
    cases hsl : sliceE? (if c.check flagOSVerBufSrc = true then T.orBuf else c.src) c.osVersion64 with
    | none =>
      refine ⟨hc, fun hg => ?_⟩
      rw [hans' hg, hsl]; rfl
    | some raw =>
      show Prog.Safe _ _ _ ((if (indexByte raw 95).isSome = true then _ else _ : M Bytes) c)
      split
      · rename_i hx
        refine ⟨hc.buf _ _, fun hg => ?_⟩
        rw [hans' hg, hsl]
        show some (List.drop _ (_ ++ _)) = _
        rw [List.drop_left]; rfl
      · rename_i hx
        refine ⟨hc, fun hg => ?_⟩
        rw [hans' hg, hsl]
        exact congrArg some (map_under_id hx).symm
  · rename_i hz
    refine ⟨hc, fun hg => ?_⟩
    rw [hans hg, osVerText, e1, if_neg hz]

theorem tri_getOSVersion {q : Req} :
    M.Tri (RG T MC MD) (Inv T MC MD) (CInv T MC MD H q) (getOSVersion T)
      (PostV T MC MD H q (GoodO T q.ua) True ((osOut T q.ua).bind (osVerText T q.ua) = none) ((osOut T q.ua).bind (osVerText T q.ua)) (OSRaw T q.ua)) := by
  refine tri_version (fun c => c.osVersion) (fun c v => { c with osVersion := v }) _ _ _ _ _ _ _ (fun _ _ => rfl) (fun _ h => h.ov)
    (fun _ _ h hv => ⟨h.src, h.mc, h.md, h.hint, h.inv, h.bv, h.ev, hv⟩) tri_getOSVersionString ?_
  rintro r c ⟨h1, h2⟩
  refine ⟨h1, fun hg => ?_⟩
  have h2 := h2 hg
  cases r with
  | some x =>
    left
    obtain ⟨g, hx⟩ := Option.ne_none_iff_exists'.mp hg
    rw [hx] at h2
    exact ⟨x, rfl, g, hx, h2.symm⟩
  | none => exact .inr ⟨rfl, h2.symm, fun _ => h2.symm⟩

/-! ### Device -/

theorem devOut_of {q : Req} {c : Ctx} (h : CInv T MC MD H q c) (hb : c.check flagDeviceDetect = true) (hg : GoodD T MD q.ua) :
    (∃ m o, MD q.ua m ∧ devOut T m q.ua = some o ∧ o.1 = eType (ent c)) ∧ (∃ m o, MD q.ua m ∧ devOut T m q.ua = some o ∧ o.2 = eBrand (ent c)) := by
  have := (h.inv.d hg).1
  rwa [if_pos (show (ent c).bits.check flagDeviceDetect = true from hb)] at this

theorem tri_getDeviceType {q : Req} (hm : MD q.ua q.md) :
    M.Tri (RG T MC MD) (Inv T MC MD) (CInv T MC MD H q) (getDeviceType T)
      (fun r c => CInv T MC MD H q c ∧ (GoodD T MD q.ua → ∃ m o, MD q.ua m ∧ devOut T m q.ua = some o ∧ r = some o.1)) := by
  unfold getDeviceType
  refine tri_reader flagDeviceDetect _ _ _ _ (tri_parseDevice hm) (fun c hc hbad => ⟨hc, fun h => absurd h hbad⟩) ?_
  rintro c ⟨hc, hb⟩
  rw [M.ctx_bind]
  have key : GoodD T MD q.ua → ∃ m o, MD q.ua m ∧ devOut T m q.ua = some o ∧
      o.1 = (if c.check flagDeviceForceDesktop = true then DeviceTypeNotebook else c.deviceType) := fun hg => (devOut_of hc hb hg).1
  split
  · rename_i h7
    rw [if_pos h7] at key
    refine ⟨hc, fun hg => ?_⟩
    obtain ⟨m, o, h1, h2, h3⟩ := key hg
    exact ⟨m, o, h1, h2, by rw [h3]⟩
  · rename_i h7
    rw [if_neg h7] at key
    refine ⟨hc, fun hg => ?_⟩
    obtain ⟨m, o, h1, h2, h3⟩ := key hg
    exact ⟨m, o, h1, h2, by rw [h3]⟩

theorem tri_getBrand {q : Req} (hm : MD q.ua q.md) :
    M.Tri (RG T MC MD) (Inv T MC MD) (CInv T MC MD H q) (getBrand T)
      (fun r c => CInv T MC MD H q c ∧ (GoodD T MD q.ua → ∃ m o, MD q.ua m ∧ devOut T m q.ua = some o ∧ r = brandText T o.2)) := by
  unfold getBrand
  refine tri_reader flagDeviceDetect _ _ _ _ (tri_parseDevice hm) (fun c hc hbad => ⟨hc, fun h => absurd h hbad⟩) ?_
  rintro c ⟨hc, hb⟩
  rw [M.ctx_bind]
  have key : GoodD T MD q.ua → ∃ m o, MD q.ua m ∧ devOut T m q.ua = some o ∧ o.2 = brandOf c := fun hg => (devOut_of hc hb hg).2
  unfold brandOf at key
  split
  · rename_i hz
    rw [if_neg hz] at key
    refine safe_ofOption_map ?_
    refine ⟨hc, fun hg => ?_⟩
    obtain ⟨m, o, h1, h2, h3⟩ := key hg
    exact ⟨m, o, h1, h2, by rw [h3]; rfl⟩
  · rename_i hz
    rw [if_pos (Classical.not_not.mp hz)] at key
    refine ⟨hc, fun hg => ?_⟩
    obtain ⟨m, o, h1, h2, h3⟩ := key hg
    exact ⟨m, o, h1, h2, by rw [h3]; rfl⟩

theorem tri_getModel {q : Req} (hm : MD q.ua q.md) :
    M.Tri (RG T MC MD) (Inv T MC MD) (CInv T MC MD H q) (getModel T) (fun _ c => CInv T MC MD H q c) := by
  unfold getModel
  refine tri_reader flagDeviceDetect _ _ _ _ (tri_parseDevice hm) (fun c hc _ => hc) ?_
  rintro c ⟨hc, hb⟩
  rw [M.ctx_bind]
  split
  · exact safe_ofOption_map hc
  · exact hc

/-! ### All getters -/

/-- No filter in use makes the detection stage behind `g` panic. -/
def GoodFor (T : Tables) (MC : Bytes → ClientType → Prop) (MD : Bytes → DeviceType → Prop) (u : Bytes) (g : Getter) : Prop :=
  (g.isC = true → GoodC T MC u) ∧ (g.isO = true → GoodO T u) ∧ (g.isD = true → GoodD T MD u)

/-- Post-condition of a getter: the invariant holds again, and the answer is that of some filters in use. -/
structure PostG (T : Tables) (MC : Bytes → ClientType → Prop) (MD : Bytes → DeviceType → Prop) (H : Bytes → UInt64) (q : Req) (g : Getter)
    (r : Option Ans) (c : Ctx) : Prop where
  cinv : CInv T MC MD H q c
  some_mask : g ≠ .model → g.isV = false → GoodFor T MC MD q.ua g →
    ∃ m d, MC q.ua m ∧ MD q.ua d ∧ r = outAns T H { q with mc := m, md := d } g
  uniform : g ≠ .model → GoodFor T MC MD q.ua g → (∀ m, MC q.ua m → m = q.mc) → (∀ d, MD q.ua d → d = q.md) →
    r = outAns T H q g
  panics : g ≠ .model → GoodFor T MC MD q.ua g → r = none → ∃ m d, MC q.ua m ∧ MD q.ua d ∧ outAns T H { q with mc := m, md := d } g = none

theorem M.Tri.map {α β : Type} {G S} {pre : Ctx → Prop} {x : M α} {post : Option α → Ctx → Prop} {post' : Option β → Ctx → Prop} {f : α → β}
    (hx : M.Tri G S pre x post) (h : ∀ r c, post r c → post' (r.map f) c) : M.Tri G S pre (M.map f x) post' := by
  refine M.Tri.bind hx (fun c hc => h none c hc) ?_
  intro a c hc
  exact h (some a) c hc

/-- Text-like getters. -/
theorem PostG.of_mask {q : Req} {g : Getter} {r : Option Ans} {c : Ctx} (hc : CInv T MC MD H q c)
    (h : GoodFor T MC MD q.ua g → ∃ m d, MC q.ua m ∧ MD q.ua d ∧ r = outAns T H { q with mc := m, md := d } g) :
    PostG T MC MD H q g r c := by
  refine ⟨hc, fun _ _ hg => h hg, fun _ hg h1 h2 => ?_, fun _ hg hn => ?_⟩
  · obtain ⟨m, d, hm, hd, hr⟩ := h hg
    rw [hr, h1 m hm, h2 d hd]
  · obtain ⟨m, d, hm, hd, hr⟩ := h hg
    exact ⟨m, d, hm, hd, by rw [← hr, hn]⟩

theorem PostG.of_uniform {q : Req} {g : Getter} (hv : g.isV = true) {r : Option Ans} {c : Ctx} (hc : CInv T MC MD H q c)
    (h : GoodFor T MC MD q.ua g → (∀ m, MC q.ua m → m = q.mc) → r = outAns T H q g)
    (hp : GoodFor T MC MD q.ua g → r = none → ∃ m d, MC q.ua m ∧ MD q.ua d ∧ outAns T H { q with mc := m, md := d } g = none) :
    PostG T MC MD H q g r c :=
  ⟨hc, fun _ h' => absurd h' (by rw [hv]; decide), fun _ hg h1 _ => h hg h1, fun _ => hp⟩

theorem tri_getter {q : Req} (hm : MC q.ua q.mc) (hd : MD q.ua q.md) (g : Getter) :
    M.Tri (RG T MC MD) (Inv T MC MD) (CInv T MC MD H q) (g.prog T) (PostG T MC MD H q g) := by
  cases g with
  | userAgent =>
    intro c hc
    refine PostG.of_mask hc fun _ => ⟨_, _, hm, hd, ?_⟩
    show some (Ans.text c.src) = _
    rw [hc.src]; rfl
  | clientType =>
    refine (tri_getClientType hm).map fun r c h => PostG.of_mask h.1 fun hg => ?_
    obtain ⟨m, g, h1, h2, h3⟩ := h.2 (hg.1 rfl)
    exact ⟨m, _, h1, hd, by simp [outAns, h2, h3]⟩
  | browser =>
    refine (tri_getBrowser hm).map fun r c h => PostG.of_mask h.1 fun hg => ?_
    obtain ⟨m, g, h1, h2, h3⟩ := h.2 (hg.1 rfl)
    exact ⟨m, _, h1, hd, by simp [outAns, h2, h3]; rfl⟩
  | browserVersionString =>
    refine (tri_getBrowserVersionString hm).map fun r c h => PostG.of_mask h.1 fun hg => ?_
    obtain ⟨m, g, h1, h2, h3⟩ := h.2 (hg.1 rfl)
    exact ⟨m, _, h1, hd, by simp [outAns, h2, h3]⟩
  | engine =>
    refine (tri_getEngine hm).map fun r c h => PostG.of_mask h.1 fun hg => ?_
    obtain ⟨m, g, h1, h2, h3⟩ := h.2 (hg.1 rfl)
    exact ⟨m, _, h1, hd, by simp [outAns, h2, h3]⟩
  | engineVersionString =>
    refine (tri_getEngineVersionString hm).map fun r c h => PostG.of_mask h.1 fun hg => ?_
    obtain ⟨m, g, h1, h2, h3⟩ := h.2 (hg.1 rfl)
    exact ⟨m, _, h1, hd, by simp [outAns, h2, h3]⟩
  | deviceType =>
    refine (tri_getDeviceType hd).map fun r c h => PostG.of_mask h.1 fun hg => ?_
    obtain ⟨m, o, h1, h2, h3⟩ := h.2 (hg.2.2 rfl)
    exact ⟨_, m, hm, h1, by simp [outAns, h2, h3]⟩
  | brand =>
    refine (tri_getBrand hd).map fun r c h => PostG.of_mask h.1 fun hg => ?_
    obtain ⟨m, o, h1, h2, h3⟩ := h.2 (hg.2.2 rfl)
    exact ⟨_, m, hm, h1, by simp [outAns, h2, h3]⟩
  | model =>
    refine (tri_getModel hd).map fun r c h => ⟨h, fun h' => absurd rfl h', fun h' => absurd rfl h', fun h' => absurd rfl h'⟩
  | os =>
    refine tri_getOS.map fun r c h => PostG.of_mask h.1 fun hg => ⟨_, _, hm, hd, ?_⟩
    rw [h.2 (hg.2.1 rfl)]; rfl
  | osVersionString =>
    refine tri_getOSVersionString.map fun r c h => PostG.of_mask h.1 fun hg => ⟨_, _, hm, hd, ?_⟩
    rw [h.2 (hg.2.1 rfl)]; rfl
  | osVersion =>
    refine tri_getOSVersion.map fun r c h => PostG.of_uniform rfl h.1 (fun hg h1 => ?_) fun hg hn => ?_
    · rw [h.2.1 (hg.2.1 rfl) trivial (fun x ⟨g, e1, e2⟩ => by rw [e1]; exact e2)]
      simp [outAns, Function.comp_def]
    · have := h.2.2 (hg.2.1 rfl) (by simpa using hn)
      exact ⟨_, _, hm, hd, by simp [outAns, this]⟩
  | browserVersion =>
    refine (tri_getBrowserVersion hm).map fun r c h => PostG.of_uniform rfl h.1 (fun hg huni => ?_) fun hg hn => ?_
    · rw [h.2.1 (hg.1 rfl) huni (fun x ⟨m, g, e0, e1, e2⟩ => by rw [← huni m e0, e1]; exact e2)]
      simp [outAns, Function.comp_def]
    · obtain ⟨m, h1, h2⟩ := h.2.2 (hg.1 rfl) (by simpa using hn)
      exact ⟨m, _, h1, hd, by simp [outAns, h2]⟩
  | engineVersion =>
    refine (tri_getEngineVersion hm).map fun r c h => PostG.of_uniform rfl h.1 (fun hg huni => ?_) fun hg hn => ?_
    · rw [h.2.1 (hg.1 rfl) huni (fun x ⟨m, g, e0, e1, e2⟩ => by rw [← huni m e0, e1]; exact e2)]
      simp [outAns, Function.comp_def]
    · obtain ⟨m, h1, h2⟩ := h.2.2 (hg.1 rfl) (by simpa using hn)
      exact ⟨m, _, h1, hd, by simp [outAns, h2]⟩

end
end Verif

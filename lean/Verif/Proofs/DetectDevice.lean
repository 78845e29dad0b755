import Verif.Proofs.Detect
/-
Device detection preserves the invariant, including its nested OS detection, which may itself hit the cache and overwrite the context
half-way through device detection.
-/
namespace Verif

section
variable {T : Tables} {MC : Bytes → ClientType → Prop} {MD : Bytes → DeviceType → Prop} {H : Bytes → UInt64}

theorem deviceLoop_ctx (T : Tables) (ir : List DeviceTuple) (c : Ctx) : (deviceLoop T ir c).1 = c := by
  induction ir with
  | nil => rfl
  | cons v ir ih =>
    unfold deviceLoop
    rw [P.ctx_bind]
    split
    · cases h : index? T.drRe v.matchRI with
      | none => rfl
      | some re =>
        rw [P.ofOption_bind_some rfl]
        split
        · rfl
        · exact ih
    · cases h : sliceE? T.drBuf v.match64 with
      | none => rfl
      | some si =>
        rw [P.ofOption_bind_some rfl]
        split
        · rfl
        · exact ih

theorem evalDeviceBody_none {T : Tables} {idx : Nat} {t : DeviceType} {c c' : Ctx}
    (h : evalDeviceBody T idx t c = (c', some none)) : c' = c := by
  unfold evalDeviceBody at h
  cases h1 : index? T.drIdx idx with
  | none => rw [h1] at h; cases h
  | some ir =>
    rw [h1, P.ofOption_bind_some rfl] at h
    cases h2 : boundsHint ir with
    | none => rw [h2] at h; cases h
    | some _ =>
      rw [h2, P.ofOption_bind_some rfl] at h
      have h3 := deviceLoop_ctx T ir c
      rcases h4 : deviceLoop T ir c with ⟨d, _ | x⟩
      · rw [P.bind_none h4] at h; cases h
      · rw [h4] at h3
        rw [P.bind_some h4] at h
        cases x with
        | none => cases h; exact h3
        | some x =>
          dsimp only at h
          rcases h5 : deviceFill T x t d with ⟨d', _ | y⟩
          · rw [P.bind_none h5] at h; cases h
          · rw [P.bind_some h5] at h; cases h

theorem evalDevice_lift (T : Tables) {idx : Nat} (t : DeviceType) (h : idx ≠ dpNotebook) :
    evalDevice T idx t = M.lift (evalDeviceBody T idx t) := by
  funext c
  unfold evalDevice M.defer
  rw [M.lift_apply]
  rcases evalDeviceBody T idx t c with ⟨c', _ | _ | y⟩
  · simp [Prog.bind, evalDeviceDeferred, h]
  · simp [Prog.bind, evalDeviceDeferred, h]
  · simp [Prog.bind, evalDeviceDeferred]

theorem restD_fields {c c' : Ctx} (h : restD c' = restD c) :
    c'.src = c.src ∧ c'.maskClientType = c.maskClientType ∧ c'.maskDeviceType = c.maskDeviceType ∧
    c'.hintHash = c.hintHash ∧ c'.clientVersion = c.clientVersion ∧ c'.engineVersion = c.engineVersion ∧ c'.osVersion = c.osVersion ∧
    c'.clientType = c.clientType ∧ c'.clientName64 = c.clientName64 ∧ c'.clientVersion64 = c.clientVersion64 ∧
    c'.engineName64 = c.engineName64 ∧ c'.engineVersion64 = c.engineVersion64 ∧ c'.osName64 = c.osName64 ∧
    c'.osVersion64 = c.osVersion64 := by
  simp [restD] at h
  simp [h]

/-- Changing only device results keeps the rest of the invariant. -/
theorem CInv.dev {q : Req} {c c' : Ctx} (h : CInv T MC MD H q c) (hr : restD c' = restD c)
    (hb : ∀ i, i ≠ flagDeviceDetect → i ≠ flagDeviceForceDesktop → i ≠ flagVendorFragment → c'.check i = c.check i)
    (hd : InvD T MD q.ua (ent c')) : CInv T MC MD H q c' := by
  have hF := restD_fields hr
  refine ⟨?_, ?_, ?_, ?_, ⟨?_, ?_, hd⟩, ?_, ?_, ?_⟩
  · simp [hF, h.src]
  · simp [hF, h.mc]
  · simp [hF, h.md]
  · simp [hF, h.hint]
  · refine h.inv.c.congr ?_ (hb _ (by decide) (by decide) (by decide))
    have a1 := hb flagVerConstSrc (by decide) (by decide) (by decide)
    have a2 := hb flagEngineForceBlink (by decide) (by decide) (by decide)
    simp only [Ctx.check] at a1 a2
    simp [eC, ent, CacheEntry.fromCtx, a1, a2, hF]
  · refine h.inv.o.congr ?_ (hb _ (by decide) (by decide) (by decide))
    have a1 := hb flagOSBufSrc (by decide) (by decide) (by decide)
    have a2 := hb flagOSVerBufSrc (by decide) (by decide) (by decide)
    simp only [Ctx.check] at a1 a2
    simp [eO, ent, CacheEntry.fromCtx, a1, a2, hF]
  · simp only [hF]; exact h.bv
  · simp only [hF]; exact h.ev
  · simp only [hF]; exact h.ov

/-- What the body of parseDevice must establish. -/
def PostD (T : Tables) (MC : Bytes → ClientType → Prop) (MD : Bytes → DeviceType → Prop) (H : Bytes → UInt64) (q : Req)
    (r : Option Bool) (c : Ctx) : Prop :=
  CInv T MC MD H q (c.setBit flagDeviceDetect) ∧ (r = none → ¬ GoodD T MD q.ua)

/-- State of the scan: nothing matched yet, `cats` still to be tried. -/
structure PreD (T : Tables) (MC : Bytes → ClientType → Prop) (MD : Bytes → DeviceType → Prop) (H : Bytes → UInt64) (q : Req)
    (cats : List (DeviceType × Nat × DeviceType)) (c : Ctx) : Prop where
  cinv : CInv T MC MD H q c
  bit : c.check flagDeviceDetect = false
  sel : GoodD T MD q.ua → devSelect T q.md q.ua devCats = devSelect T q.md q.ua cats

theorem setBit_D_bits (c c' : Ctx) (h : ∀ i, i ≠ flagDeviceDetect → i ≠ flagDeviceForceDesktop → i ≠ flagVendorFragment → c'.check i = c.check i) :
    ∀ i, i ≠ flagDeviceDetect → i ≠ flagDeviceForceDesktop → i ≠ flagVendorFragment → (c'.setBit flagDeviceDetect).check i = c.check i := by
  intro i h1 h2 h3
  rw [check_setBit_ne _ (by decide) (Ne.symm h1)]
  exact h i h1 h2 h3

theorem zeroD_of {q : Req} {c : Ctx} (h : CInv T MC MD H q c) (hb : c.check flagDeviceDetect = false) (hg : GoodD T MD q.ua) :
    EZeroD (ent c) := by
  have := (h.inv.d hg).1
  rwa [if_neg (by rw [show (ent c).bits.check flagDeviceDetect = c.check flagDeviceDetect from rfl, hb]; decide)] at this

theorem viewD_fresh {q : Req} {c : Ctx} (h : CInv T MC MD H q c) (hb : c.check flagDeviceDetect = false)
    (hg : GoodD T MD q.ua) : viewD c = viewD { src := q.ua, maskDeviceType := q.md } := by
  have := zeroD_of h hb hg
  simp [EZeroD, ent, CacheEntry.fromCtx] at this
  simp [viewD, h.src, h.md, Ctx.check, this]

/-- The body of evalDevice, from a scanning state. -/
theorem body_cases {q : Req} {c : Ctx} {bit : DeviceType} {idx : Nat} {t : DeviceType} {cats} (hm : MD q.ua q.md)
    (h : PreD T MC MD H q ((bit, idx, t) :: cats) c) (hbit : q.md &&& bit ≠ 0) :
    (∃ c', evalDeviceBody T idx t c = (c', none) ∧ ¬ GoodD T MD q.ua ∧ CInv T MC MD H q c' ∧ c'.check flagDeviceDetect = false) ∨
    (∃ c' typ, evalDeviceBody T idx t c = (c', some (some typ)) ∧ CInv T MC MD H q ({ c' with deviceType := typ }.setBit flagDeviceDetect)) ∨
    (evalDeviceBody T idx t c = (c, some none) ∧ PreD T MC MD H q cats c) := by
  obtain ⟨-, -, hfr⟩ := locD_evalDeviceBody T idx t c c rfl
  have hsel : GoodD T MD q.ua → ∀ d, evalDeviceBody T idx t { src := q.ua, maskDeviceType := q.md } = d →
      (evalDeviceBody T idx t c).2 = d.2 ∧ viewD (evalDeviceBody T idx t c).1 = viewD d.1 := by
    intro hg d hd
    obtain ⟨a, b, -⟩ := locD_evalDeviceBody T idx t c _ (viewD_fresh h.cinv h.bit hg)
    rw [hd] at a b; exact ⟨a, b⟩
  have hs := h.sel
  rw [devSelect, if_pos hbit] at hs
  have hcb : ∀ i, (evalDeviceBody T idx t c).1.check i = c.check i := fun i => by simp only [Ctx.check, hfr.2]
  rcases hd : evalDeviceBody T idx t c with ⟨c', _ | _ | typ⟩
  · left
    rw [hd] at hfr
    have hng : ¬ GoodD T MD q.ua := by
      intro hg
      obtain ⟨a, -⟩ := hsel hg _ rfl
      rw [hd] at a
      have hne := hg q.md hm
      unfold devOut at hne
      rw [hs hg] at hne
      rcases hx : evalDeviceBody T idx t { src := q.ua, maskDeviceType := q.md } with ⟨d, _ | y⟩
      · rw [hx] at hne; exact hne rfl
      · rw [hx] at a; cases a
    rw [hd] at hcb
    refine ⟨c', rfl, hng, h.cinv.dev hfr.1 (fun i _ _ h3 => hcb i) (fun hg => absurd hg hng), ?_⟩
    rw [show c'.check flagDeviceDetect = _ from hcb _]; exact h.bit
  · right; right
    have := evalDeviceBody_none hd
    subst this
    refine ⟨rfl, h.cinv, h.bit, fun hg => ?_⟩
    rw [hs hg]
    obtain ⟨a, -⟩ := hsel hg _ rfl
    rw [hd] at a
    rcases hx : evalDeviceBody T idx t { src := q.ua, maskDeviceType := q.md } with ⟨d, y⟩
    rw [hx] at a
    have : y = some none := a.symm
    subst this
    rfl
  · right; left
    refine ⟨c', typ, rfl, ?_⟩
    rw [hd] at hfr hcb
    refine h.cinv.dev ?_ (setBit_D_bits _ _ fun i _ _ h3 => ?_) ?_
    · exact hfr.1
    · exact hcb i
    · intro hg
      obtain ⟨a, b⟩ := hsel hg _ rfl
      rw [hd] at a b
      rcases hx : evalDeviceBody T idx t { src := q.ua, maskDeviceType := q.md } with ⟨d, y⟩
      have hs := hs hg
      rw [hx] at a b hs
      have : y = some (some typ) := a.symm
      subst this
      dsimp only at hs
      have hbr : c'.brandName64 = d.brandName64 := congrArg ViewD.brandName64 b
      have hz := zeroD_of h.cinv h.bit hg
      have hfo : c'.check flagDeviceForceDesktop = false := by
        rw [show c'.check flagDeviceForceDesktop = _ from hcb _]; exact hz.2.2.1
      have hve : c'.check flagVendorFragment = false := by
        rw [show c'.check flagVendorFragment = _ from hcb _]; exact hz.2.2.2
      have b2 : (({ c' with deviceType := typ } : Ctx).setBit flagDeviceDetect).check flagDeviceDetect = true := by rw [Ctx.check_setBit _ _ _ (by decide)]; simp
      have b7 : (({ c' with deviceType := typ } : Ctx).setBit flagDeviceDetect).check flagDeviceForceDesktop = false := by
        rw [check_setBit_ne _ (by decide) (by decide)]; exact hfo
      have b9 : (({ c' with deviceType := typ } : Ctx).setBit flagDeviceDetect).check flagVendorFragment = false := by
        rw [check_setBit_ne _ (by decide) (by decide)]; exact hve
      have ho : devOut T q.md q.ua = some (typ, if d.brandName64 = 0 then none else some (d.brandName64, false)) := by
        unfold devOut; rw [hs]
      simp only [Ctx.check] at b2 b7 b9
      refine ⟨?_, ?_⟩
      · rw [if_pos (by exact b2)]
        refine ⟨⟨q.md, _, hm, ho, ?_⟩, ⟨q.md, _, hm, ho, ?_⟩⟩
        · simp [eType, ent, CacheEntry.fromCtx, b7]
          simp [Ctx.setBit]
        · simp [eBrand, ent, CacheEntry.fromCtx, b9]
          simp [Ctx.setBit, hbr]
      · intro h7
        simp [ent, CacheEntry.fromCtx, b7] at h7

/-- A category other than Notebook. -/
theorem tri_deviceTry {q : Req} (hm : MD q.ua q.md) {bit : DeviceType} {idx : Nat} (t : DeviceType) {cats} (hidx : idx ≠ dpNotebook) {rest : M Bool}
    (hrest : M.Tri (RG T MC MD) (Inv T MC MD) (PreD T MC MD H q cats) rest (PostD T MC MD H q)) :
    M.Tri (RG T MC MD) (Inv T MC MD) (PreD T MC MD H q ((bit, idx, t) :: cats)) (deviceTry T bit idx t rest) (PostD T MC MD H q) := by
  intro c hc
  unfold deviceTry
  rw [M.ctx_bind, evalDevice_lift T t hidx, hc.cinv.md]
  split
  · rename_i hbit
    rw [M.lift_bind]
    rcases body_cases hm hc hbit with ⟨c', h1, h2, h3, h4⟩ | ⟨c', typ, h1, h2⟩ | ⟨h1, h2⟩
    · rw [h1]
      refine ⟨?_, fun _ => h2⟩
      refine h3.dev rfl (setBit_D_bits _ _ fun _ _ _ _ => rfl) (fun hg => absurd hg h2)
    · rw [h1]
      exact ⟨h2, fun h => by cases h⟩
    · rw [h1]
      exact hrest c h2
  · rename_i hbit
    refine hrest c ⟨hc.cinv, hc.bit, fun hg => ?_⟩
    rw [hc.sel hg, devSelect, if_neg hbit]

/-- State before the fall-backs: no rule matched; `c` is `c0`, which meets the invariant, with the desktop flag brought up to date. -/
structure PreF (T : Tables) (MC : Bytes → ClientType → Prop) (MD : Bytes → DeviceType → Prop) (H : Bytes → UInt64) (q : Req)
    (c0 c : Ctx) : Prop where
  cinv : CInv T MC MD H q c0
  rest : restD c = restD c0
  typ : c.deviceType = c0.deviceType
  br : c.brandName64 = c0.brandName64
  bits : ∀ i, i ≠ flagDeviceForceDesktop → c.check i = c0.check i
  b7 : c.check flagDeviceForceDesktop = false → c0.check flagDeviceForceDesktop = false
  sel : GoodD T MD q.ua → devSelect T q.md q.ua devCats = some none
  dsk : GoodD T MD q.ua → (if q.md &&& DeviceTypeNotebook ≠ 0 then desktop T q.ua else some false) = some (c.check flagDeviceForceDesktop)

theorem CInv.dev_type {q : Req} {c : Ctx} (h : CInv T MC MD H q c) (hm : MD q.ua q.md) {o} (hg' : GoodD T MD q.ua → devOut T q.md q.ua = some o)
    {c' : Ctx} (hr : restD c' = restD c)
    (hb : ∀ i, i ≠ flagDeviceForceDesktop → i ≠ flagVendorFragment → c'.check i = c.check i)
    (hd7 : GoodD T MD q.ua → c'.check flagDeviceForceDesktop = true → desktop T q.ua = some true)
    (ht : GoodD T MD q.ua → o.1 = eType (ent c') ∨ eType (ent c') = eType (ent c) ∧ (c.check flagDeviceDetect = false → o.1 = eType (ent c)))
    (hbr : GoodD T MD q.ua → o.2 = eBrand (ent c') ∨ eBrand (ent c') = eBrand (ent c) ∧ (c.check flagDeviceDetect = false → o.2 = eBrand (ent c))) :
    CInv T MC MD H q (c'.setBit flagDeviceDetect) := by
  refine h.dev (by exact hr) (setBit_D_bits _ _ fun i _ h2 h3 => hb i h2 h3) ?_
  intro hg
  have hI := h.inv.d hg
  have b2 : (c'.setBit flagDeviceDetect).check flagDeviceDetect = true := by rw [Ctx.check_setBit _ _ _ (by decide)]; simp
  have b7 : (c'.setBit flagDeviceDetect).check flagDeviceForceDesktop = c'.check flagDeviceForceDesktop :=
    check_setBit_ne _ (by decide) (by decide)
  have b9 : (c'.setBit flagDeviceDetect).check flagVendorFragment = c'.check flagVendorFragment :=
    check_setBit_ne _ (by decide) (by decide)
  have et : eType (ent (c'.setBit flagDeviceDetect)) = eType (ent c') := by
    show (if (c'.setBit flagDeviceDetect).check flagDeviceForceDesktop = true then DeviceTypeNotebook else c'.deviceType) =
      (if c'.check flagDeviceForceDesktop = true then DeviceTypeNotebook else c'.deviceType)
    rw [b7]
  have eb : eBrand (ent (c'.setBit flagDeviceDetect)) = eBrand (ent c') := by
    show (if c'.brandName64 = 0 then none else some (c'.brandName64, (c'.setBit flagDeviceDetect).check flagVendorFragment)) =
      (if c'.brandName64 = 0 then none else some (c'.brandName64, c'.check flagVendorFragment))
    rw [b9]
  have hd2 : (ent c).bits.check flagDeviceDetect = c.check flagDeviceDetect := rfl
  refine ⟨?_, ?_⟩
  · rw [if_pos (by simp only [Ctx.check] at b2; simp [ent, CacheEntry.fromCtx, b2]), et, eb]
    constructor
    · rcases ht hg with h1 | ⟨h1, h2⟩
      · exact ⟨q.md, o, hm, hg' hg, h1⟩
      · rw [h1]
        cases hbit : c.check flagDeviceDetect with
        | false => exact ⟨q.md, o, hm, hg' hg, h2 hbit⟩
        | true => rw [hd2, hbit, if_pos rfl] at hI; exact hI.1.1
    · rcases hbr hg with h1 | ⟨h1, h2⟩
      · exact ⟨q.md, o, hm, hg' hg, h1⟩
      · rw [h1]
        cases hbit : c.check flagDeviceDetect with
        | false => exact ⟨q.md, o, hm, hg' hg, h2 hbit⟩
        | true => rw [hd2, hbit, if_pos rfl] at hI; exact hI.1.2
  · intro h7
    refine hd7 hg ?_
    rw [show (ent (c'.setBit flagDeviceDetect)).bits.check flagDeviceForceDesktop = (c'.setBit flagDeviceDetect).check flagDeviceForceDesktop from rfl,
      b7] at h7
    exact h7

theorem eBrand_ent (c : Ctx) : eBrand (ent c) = brandOf c := rfl

theorem tri_fallback {q : Req} (hm : MD q.ua q.md) :
    ∀ c0 c, PreF T MC MD H q c0 c → (M.lift (deviceFallback T) c).Safe (RG T MC MD) (Inv T MC MD) (fun r => PostD T MC MD H q r.2 r.1) := by
  intro c0 c hc
  have hsrc : c.src = q.ua := (restD_fields hc.rest).1.trans hc.cinv.src
  rw [M.lift_apply]
  unfold deviceFallback
  rw [P.ctx_bind, hsrc]
  have hz : GoodD T MD q.ua → c0.check flagDeviceDetect = false → EZeroD (ent c0) := fun hg hb => zeroD_of hc.cinv hb hg
  have hd7 : GoodD T MD q.ua → c.check flagDeviceForceDesktop = true → desktop T q.ua = some true := by
    intro hg h
    have hd := hc.dsk hg
    rw [h] at hd
    split at hd
    · exact hd
    · cases hd
  have hbits9 : c.check flagVendorFragment = c0.check flagVendorFragment := hc.bits _ (by decide)
  -- the keyword fall-backs
  have kw : ∀ (t : DeviceType), (GoodD T MD q.ua → devOut T q.md q.ua =
      some (if c.check flagDeviceForceDesktop = true then DeviceTypeNotebook else t, none)) →
      CInv T MC MD H q (({ c with deviceType := t } : Ctx).setBit flagDeviceDetect) := by
    intro t ho
    refine hc.cinv.dev_type hm ho (c' := { c with deviceType := t }) hc.rest (fun i h7 _ => hc.bits i h7) hd7 (fun hg => .inl ?_) (fun hg => .inr ⟨?_, fun hb => ?_⟩)
    · rfl
    · show brandOf c = brandOf c0
      rw [brandOf, brandOf, hc.br, hbits9]
    · have h0 : c0.brandName64 = 0 := (hz hg hb).2.1
      rw [eBrand_ent, brandOf, if_pos h0]
  have hout : GoodD T MD q.ua → devOut T q.md q.ua =
      (if T.forceTablet.isMatch q.ua then some (if c.check flagDeviceForceDesktop then DeviceTypeNotebook else DeviceTypeTablet, none)
      else if T.forceMobile.isMatch q.ua then some (if c.check flagDeviceForceDesktop then DeviceTypeNotebook else DeviceTypeMobile, none)
      else (vendorOut T q.ua).map fun b => (if c.check flagDeviceForceDesktop then DeviceTypeNotebook else 0, b)) := by
    intro hg
    unfold devOut
    rw [hc.sel hg]
    dsimp only
    rw [hc.dsk hg]
  by_cases h1 : T.forceTablet.isMatch q.ua = true
  · rw [if_pos h1]
    refine ⟨kw _ fun hg => ?_, fun h => by cases h⟩
    rw [hout hg, if_pos h1]
  · rw [if_neg h1]
    by_cases h2 : T.forceMobile.isMatch q.ua = true
    · rw [if_pos h2]
      refine ⟨kw _ fun hg => ?_, fun h => by cases h⟩
      rw [hout hg, if_neg h1, if_pos h2]
    · rw [if_neg h2]
      have hout' : GoodD T MD q.ua → devOut T q.md q.ua =
          (vendorOut T q.ua).map fun b => (if c.check flagDeviceForceDesktop then DeviceTypeNotebook else 0, b) := by
        intro hg; rw [hout hg, if_neg h1, if_neg h2]
      have htype : ∀ c' : Ctx, c'.deviceType = c.deviceType → c'.check flagDeviceForceDesktop = c.check flagDeviceForceDesktop →
          ∀ b : Option (Entry64 × Bool), GoodD T MD q.ua →
          (if c.check flagDeviceForceDesktop then DeviceTypeNotebook else 0, b).1 = eType (ent c') ∨
          eType (ent c') = eType (ent c0) ∧ (c0.check flagDeviceDetect = false →
            (if c.check flagDeviceForceDesktop then DeviceTypeNotebook else 0, b).1 = eType (ent c0)) := by
        intro c' e1 e2 b hg
        cases h7 : c.check flagDeviceForceDesktop with
        | true =>
          left
          show _ = (if c'.check flagDeviceForceDesktop = true then DeviceTypeNotebook else c'.deviceType)
          rw [e2, h7]; rfl
        | false =>
          have h70 := hc.b7 h7
          refine .inr ⟨?_, fun hb => ?_⟩
          · show (if c'.check flagDeviceForceDesktop = true then DeviceTypeNotebook else c'.deviceType) =
              (if c0.check flagDeviceForceDesktop = true then DeviceTypeNotebook else c0.deviceType)
            rw [e1, e2, h7, h70, hc.typ]
          · have h0 : c0.deviceType = 0 := (hz hg hb).1
            show _ = (if c0.check flagDeviceForceDesktop = true then DeviceTypeNotebook else c0.deviceType)
            rw [h0, h70]
      unfold P.when
      by_cases h3 : c.brandName64 = 0
      · rw [if_pos h3]
        have hv0 : viewV c = viewV { src := q.ua } := by
          simp [viewV, brandOf, h3, hsrc]
        obtain ⟨a, b, f⟩ := locV_vendorLoop T T.vrIdx c _ hv0
        have hfr : restD (vendorLoop T T.vrIdx c).1 = restD c := by
          have := f.1; simp at this; simp [restD, this]
        have hty : (vendorLoop T T.vrIdx c).1.deviceType = c.deviceType := by
          have := f.1; simp at this; simp [this]
        have hvo : vendorOut T q.ua = match vendorLoop T T.vrIdx c with | (c', some _) => some (brandOf c') | (_, none) => none := by
          unfold vendorOut evalVendor
          rcases hx : vendorLoop T T.vrIdx c with ⟨c', _ | y⟩ <;> rcases hy : vendorLoop T T.vrIdx { src := q.ua } with ⟨d, _ | z⟩ <;>
            rw [hx, hy] at a b
          · cases a
          · cases a
          · simp only [viewV, Prod.mk.injEq] at b
            dsimp only
            rw [eBrand_ent, b.2]
        rw [P.bind_apply]
        unfold evalVendor
        rcases hx : vendorLoop T T.vrIdx c with ⟨c', _ | y⟩
        · rw [hx] at hvo hfr hty f
          have hng : ¬ GoodD T MD q.ua := by
            intro hg
            have := hg q.md hm
            rw [hout' hg, hvo] at this
            exact this rfl
          refine ⟨?_, fun _ => hng⟩
          exact hc.cinv.dev (hfr.trans hc.rest) (setBit_D_bits _ _ fun i _ h7 h3 => (f.2 i h3).trans (hc.bits i h7)) (fun hg => absurd hg hng)
        · rw [hx] at hvo hfr hty f
          refine ⟨?_, fun h => by cases h⟩
          refine hc.cinv.dev_type hm (o := (if c.check flagDeviceForceDesktop then DeviceTypeNotebook else 0, brandOf c'))
            (fun hg => by rw [hout' hg, hvo]; rfl) (hfr.trans hc.rest) (fun i h7 h9 => (f.2 i h9).trans (hc.bits i h7))
            (fun hg h7 => hd7 hg ((f.2 _ (by decide)).symm.trans h7)) (htype c' hty (f.2 _ (by decide)) _) (fun hg => .inl rfl)
      · rw [if_neg h3]
        refine ⟨?_, fun h => by cases h⟩
        -- the brand comes from the cache; it is non-zero, so the entry had its device bit set
        by_cases hg : GoodD T MD q.ua
        · have hb : c0.check flagDeviceDetect = true := by
            cases hb : c0.check flagDeviceDetect with
            | true => rfl
            | false => exact absurd (hc.br.trans (hz hg hb).2.1) h3
          obtain ⟨o, ho⟩ := Option.ne_none_iff_exists'.mp (hg q.md hm)
          have ho' := ho
          rw [hout' hg] at ho'
          rcases hv : vendorOut T q.ua with _ | b
          · rw [hv] at ho'; cases ho'
          · rw [hv] at ho'
            cases ho'
            refine hc.cinv.dev_type hm (fun _ => ho) (c' := c) hc.rest (fun i h7 _ => hc.bits i h7) hd7 (htype c rfl rfl b)
              (fun _ => .inr ⟨?_, fun h => ?_⟩)
            · show brandOf c = brandOf c0
              rw [brandOf, brandOf, hc.br, hbits9]
            · rw [hb] at h; cases h
        · exact hc.cinv.dev hc.rest (setBit_D_bits _ _ fun i _ h7 _ => hc.bits i h7) (fun h => absurd h hg)

/-- The Notebook category, with its deferred OS detection, and the fall-backs. -/
theorem tri_deviceNotebook {q : Req} (hm : MD q.ua q.md) :
    M.Tri (RG T MC MD) (Inv T MC MD) (PreD T MC MD H q [(DeviceTypeNotebook, dpNotebook, DeviceTypeNotebook)])
      (deviceTry T DeviceTypeNotebook dpNotebook DeviceTypeNotebook (M.lift (deviceFallback T))) (PostD T MC MD H q) := by
  intro c hc
  unfold deviceTry
  rw [M.ctx_bind, hc.cinv.md]
  split
  · rename_i hbit
    rw [M.bind_apply]
    unfold evalDevice M.defer
    rw [M.lift_apply]
    rcases body_cases hm hc hbit with ⟨c', h1, h2, h3, h4⟩ | ⟨c', typ, h1, h2⟩ | ⟨h1, h2⟩
    · -- panic in the body: the deferred function still runs
      rw [h1]
      simp only [Prog.bind]
      rw [Prog.bind_assoc]
      unfold evalDeviceDeferred
      dsimp only
      rw [if_neg (by simp), M.bind_apply, Prog.bind_assoc]
      refine (tri_getOS (T := T) (MC := MC) (MD := MD) (H := H) (q := q) c' h3).bind ?_
      rintro ⟨c1, _ | os⟩ ⟨k1, k2⟩
      · exact ⟨k1.dev rfl (setBit_D_bits _ _ fun _ _ _ _ => rfl) (fun hg => absurd hg h2), fun _ => h2⟩
      · dsimp only
        split
        · refine ⟨k1.dev rfl (setBit_D_bits _ _ fun i _ i7 _ => ?_) (fun hg => absurd hg h2), fun _ => h2⟩
          exact check_setBit_ne _ (by decide) (Ne.symm i7)
        · exact ⟨k1.dev rfl (setBit_D_bits _ _ fun _ _ _ _ => rfl) (fun hg => absurd hg h2), fun _ => h2⟩
    · rw [h1]
      exact ⟨h2, fun h => by cases h⟩
    · rw [h1]
      simp only [Prog.bind]
      rw [Prog.bind_assoc]
      unfold evalDeviceDeferred
      dsimp only
      rw [if_neg (by simp), M.bind_apply, Prog.bind_assoc]
      have hdesk : GoodD T MD q.ua → devSelect T q.md q.ua devCats = some none ∧ GoodO T q.ua ∧ desktop T q.ua ≠ none := by
        intro hg
        have hs := h2.sel hg
        rw [devSelect] at hs
        have hne := hg q.md hm
        unfold devOut at hne
        rw [hs] at hne
        dsimp only at hne
        rw [if_pos hbit] at hne
        have hdn : desktop T q.ua ≠ none := by intro h; rw [h] at hne; exact hne rfl
        refine ⟨hs, ?_, hdn⟩
        intro h
        exact hdn (by simp [desktop, osAns, h])
      refine (tri_getOS (T := T) (MC := MC) (MD := MD) (H := H) (q := q) c hc.cinv).bind ?_
      rintro ⟨c1, _ | os⟩ ⟨k1, k2⟩
      · have hng : ¬ GoodD T MD q.ua := by
          intro hg
          obtain ⟨_, g2, g3⟩ := hdesk hg
          exact g3 (by simp [desktop, ← k2 g2])
        exact ⟨k1.dev rfl (setBit_D_bits _ _ fun _ _ _ _ => rfl) (fun hg => absurd hg hng), fun _ => hng⟩
      · have hos : GoodD T MD q.ua → desktop T q.ua = some (desktopOS.contains os) := by
          intro hg
          obtain ⟨_, g2, g3⟩ := hdesk hg
          simp [desktop, ← k2 g2]
        dsimp only
        split
        · rename_i hct
          refine tri_fallback hm c1 (c1.setBit flagDeviceForceDesktop)
            ⟨k1, rfl, rfl, rfl, fun i h7 => check_setBit_ne _ (by decide) (Ne.symm h7), fun h => ?_, fun hg => (hdesk hg).1, fun hg => ?_⟩
          · rw [Ctx.check_setBit _ _ _ (by decide)] at h; simp at h
          · rw [if_pos hbit, hos hg, hct, Ctx.check_setBit _ _ _ (by decide)]; simp
        · rename_i hct
          refine tri_fallback hm c1 c1 ⟨k1, rfl, rfl, rfl, fun _ _ => rfl, id, fun hg => (hdesk hg).1, fun hg => ?_⟩
          rw [if_pos hbit, hos hg]
          cases h7 : c1.check flagDeviceForceDesktop with
          | false => simpa using hct
          | true => rw [← hos hg]; exact (k1.inv.d hg).2 h7
  · rename_i hbit
    refine tri_fallback hm c c ⟨hc.cinv, rfl, rfl, rfl, fun _ _ => rfl, id, fun hg => ?_, fun hg => ?_⟩
    · rw [hc.sel hg, devSelect, if_neg hbit, devSelect]
    · rw [if_neg hbit]
      rw [show c.check flagDeviceForceDesktop = false from (zeroD_of hc.cinv hc.bit hg).2.2.1]

theorem tri_parseDevice {q : Req} (hm : MD q.ua q.md) :
    M.Tri (RG T MC MD) (Inv T MC MD) (fun c => CInv T MC MD H q c ∧ c.check flagDeviceDetect = false) (parseDevice T)
      (fun r c => CInv T MC MD H q c ∧ c.check flagDeviceDetect = true ∧ (r = none → ¬ GoodD T MD q.ua)) := by
  refine tri_parseFrame flagDeviceDetect (by decide) _ _ ?_
  intro c hc
  refine (?_ : M.Tri (RG T MC MD) (Inv T MC MD) (PreD T MC MD H q devCats) (detectDevice T) (PostD T MC MD H q)) c ⟨hc.1, hc.2, fun _ => rfl⟩
  exact tri_deviceTry hm _ (by decide) <| tri_deviceTry hm _ (by decide) <| tri_deviceTry hm _ (by decide) <|
    tri_deviceTry hm _ (by decide) <| tri_deviceTry hm _ (by decide) <| tri_deviceTry hm _ (by decide) <|
    tri_deviceTry hm _ (by decide) <| tri_deviceNotebook hm

end
end Verif

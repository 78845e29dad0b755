import Verif.Proofs.Getters
/-
`uncached` (a getter on a brand-new context when the cache never finds anything) in terms of detection outcomes.
-/
namespace Verif

section
variable {T : Tables} {H : Bytes → UInt64}

/-- The filters of `q`, as the only ones in use. -/
def onlyC (q : Req) : Bytes → ClientType → Prop := fun _ m => m = q.mc
def onlyD (q : Req) : Bytes → DeviceType → Prop := fun _ m => m = q.md

theorem inv_zero {MC : Bytes → ClientType → Prop} {MD : Bytes → DeviceType → Prop} {u : Bytes} {e : CacheEntry} (h0 : e.bits = 0)
    (h1 : eC e = zeroC) (h2 : eO e = zeroO) (h3 : e.deviceType = 0) (h4 : e.brandName64 = 0) : Inv T MC MD u e := by
  refine ⟨fun _ => ?_, fun _ => ?_, fun _ => ⟨?_, ?_⟩⟩
  · rw [h0]; simpa using h1
  · rw [h0]; simpa using h2
  · rw [h0]; simp [EZeroD, h0, h3, h4]
  · rw [h0]; simp

theorem newCtx_eq (q : Req) : q.newCtx H =
    { src := q.ua, maskClientType := q.mc, maskDeviceType := q.md, hintHash := q.hint H } := by
  unfold Req.newCtx Req.hint Ctx.setRequestedWith
  cases q.header <;> simp [Ctx.setUserAgent, Ctx.filterDeviceType, Ctx.filterClientType, newCtx, Ctx.reset0, Version.reset]

theorem cinv_fresh (MC : Bytes → ClientType → Prop) (MD : Bytes → DeviceType → Prop) (q : Req) :
    CInv T MC MD H q { src := q.ua, maskClientType := q.mc, maskDeviceType := q.md, hintHash := q.hint H } :=
  ⟨rfl, rfl, rfl, rfl, inv_zero rfl (by simp [eC, ent, CacheEntry.fromCtx, zeroC]) (by simp [eO, ent, CacheEntry.fromCtx, zeroO]) rfl rfl, fun _ => .zero, fun _ => .zero, fun _ => .zero⟩

/-! ### Panics -/

theorem null_parseFrame (flag : Nat) (body : M Bool) (c : Ctx) :
    (parseFrame flag body).null c = ((body.null c).1.setBit flag, (body.null c).2) := by
  unfold M.null parseFrame
  rw [M.ctx_bind, M.cacheGet_bind]
  simp only [Prog.runNull]
  unfold M.defer
  rw [Prog.runNull_bind]
  rcases (body c).runNull with ⟨c', r⟩
  simp [finishParse, Prog.runNull, Prog.bind]

theorem null_when {b : Prop} [Decidable b] (x : M Unit) : (M.when b x).null = P.when b x.null := by
  unfold M.when P.when
  split <;> rfl

theorem null_ensure_none {flag : Nat} {parse : M Bool} {c : Ctx} (hb : c.check flag = false) (h : (parse.null c).2 = none) :
    ((ensure flag parse).null c).2 = none := by
  unfold ensure
  rw [M.null_bind, M.null_ctx, P.ctx_bind, null_when]
  unfold P.when
  rw [if_pos (by rw [hb]; decide), M.null_bind]
  rcases hp : parse.null c with ⟨c', _ | r⟩
  · rw [P.bind_none hp]
  · rw [hp] at h; cases h

theorem P.bind_none' {α β : Type} {x : P α} {f : α → P β} {c : Ctx} (h : (x c).2 = none) : ((x >>= f) c).2 = none := by
  rcases hx : x c with ⟨c', _ | r⟩
  · rw [P.bind_none hx]
  · rw [hx] at h; cases h

theorem null_bind_none {α β : Type} {x : M α} {f : α → M β} {c : Ctx} (h : (x.null c).2 = none) : ((x >>= f).null c).2 = none := by
  rw [M.null_bind]
  rcases hx : x.null c with ⟨c', _ | r⟩
  · rw [P.bind_none hx]
  · rw [hx] at h; cases h

theorem null_parseClient_none {q : Req} {c : Ctx} (hs : viewC c = viewC { src := q.ua, maskClientType := q.mc })
    (h : clientOut T q.mc q.ua = none) : ((parseClient T).null c).2 = none := by
  unfold parseClient
  rw [null_parseFrame, M.null_lift, (locC_detectClient T c _ hs).1]
  unfold clientOut at h
  rcases hd : detectClient T { src := q.ua, maskClientType := q.mc } with ⟨d, _ | r⟩
  · rfl
  · rw [hd] at h; cases h

theorem null_parseOS_none {u : Bytes} {c : Ctx} (hs : viewO c = viewO { src := u })
    (h : osOut T u = none) : ((parseOS T).null c).2 = none := by
  unfold parseOS
  rw [null_parseFrame, M.null_lift, (locO_detectOS T c _ hs).1]
  unfold osOut at h
  rcases hd : detectOS T { src := u } with ⟨d, _ | r⟩
  · rfl
  · rw [hd] at h; cases h

/-! ### Device detection without a cache -/

/-- State before and during the scan of an uncached device detection: device and OS results are fresh. -/
structure Fresh (q : Req) (c : Ctx) : Prop where
  d : viewD c = viewD { src := q.ua, maskDeviceType := q.md }
  o : viewO c = viewO { src := q.ua }
  o3 : c.check flagOSDetect = false

/-- Device detection continuing with the categories `cats` panics. -/
def PanicsFrom (T : Tables) (q : Req) (cats : List (DeviceType × Nat × DeviceType)) : Prop :=
  devSelect T q.md q.ua cats = none ∨ devSelect T q.md q.ua cats = some none ∧
    ((q.md &&& DeviceTypeNotebook ≠ 0 ∧ desktop T q.ua = none) ∨
      (T.forceTablet.isMatch q.ua = false ∧ T.forceMobile.isMatch q.ua = false ∧ vendorOut T q.ua = none))

theorem null_ensure {flag : Nat} {parse : M Bool} {c c' : Ctx} {r : Option Bool} (hb : c.check flag = false) (h : parse.null c = (c', r)) :
    (ensure flag parse).null c = (c', r.map fun _ => ()) := by
  unfold ensure
  rw [M.null_bind, M.null_ctx, P.ctx_bind, null_when]
  unfold P.when
  rw [if_pos (by rw [hb]; decide), M.null_bind]
  rcases r with _ | r
  · rw [P.bind_none h]; rfl
  · rw [P.bind_some h]; rfl

theorem null_getOS {u : Bytes} {c : Ctx} (ho : viewO c = viewO { src := u }) (h3 : c.check flagOSDetect = false) :
    ((getOS T).null c).2 = osAns T u ∧ frameO c { ((getOS T).null c).1 with bits := c.bits } := by
  obtain ⟨e1, e2, e3⟩ := locO_detectOS T c _ ho
  have hp : (parseOS T).null c = ((detectOS T c).1.setBit flagOSDetect, (detectOS T c).2) := by
    unfold parseOS; rw [null_parseFrame, M.null_lift]
  unfold getOS
  rw [M.null_bind]
  have hen := null_ensure h3 hp
  unfold osAns osOut
  rcases hd : detectOS T { src := u } with ⟨d, _ | r⟩
  · rw [hd] at e1
    rw [e1] at hen
    rw [P.bind_none hen]
    exact ⟨rfl, e3.1, fun _ _ _ => rfl⟩
  · rw [hd] at e1 e2
    rw [e1] at hen
    rw [P.bind_some hen, M.null_bind, M.null_ctx, P.ctx_bind]
    have hv := congrArg ViewO.bufSrc e2
    have hname := congrArg ViewO.osName64 e2
    have hsrc := congrArg ViewO.src e2
    have hF := frameO_fields e3
    have a1 : ((detectOS T c).1.setBit flagOSDetect).check flagOSBufSrc = d.check flagOSBufSrc := by
      rw [check_setBit_ne _ (by decide) (by decide)]; exact hv
    have a2 : ((detectOS T c).1.setBit flagOSDetect).osName64 = d.osName64 := hname
    have a3 : ((detectOS T c).1.setBit flagOSDetect).src = u := by
      show (detectOS T c).1.src = u
      rw [hF.1]; exact congrArg ViewO.src ho
    dsimp only
    have hans : (some (eO (ent d))).bind (osNameText T u) =
        (if d.osName64 ≠ 0 then (sliceE? (if d.check flagOSBufSrc then u else T.orBuf) d.osName64).map (trim 32) else some unknown) := rfl
    rw [hans, a1, a2, a3]
    split
    · rw [M.null_bind, M.null_ofOption]
      cases sliceE? (if d.check flagOSBufSrc = true then u else T.orBuf) d.osName64 with
      | none => exact ⟨rfl, e3.1, fun _ _ _ => rfl⟩
      | some raw => exact ⟨rfl, e3.1, fun _ _ _ => rfl⟩
    · exact ⟨rfl, e3.1, fun _ _ _ => rfl⟩

theorem null_deviceTry {q : Req} {bit : DeviceType} {idx : Nat} {t : DeviceType} {cats} (hidx : idx ≠ dpNotebook) {rest : M Bool}
    (hrest : ∀ c, Fresh q c → PanicsFrom T q cats → (rest.null c).2 = none) :
    ∀ c, Fresh q c → PanicsFrom T q ((bit, idx, t) :: cats) → ((deviceTry T bit idx t rest).null c).2 = none := by
  intro c hc hp
  have hmd : c.maskDeviceType = q.md := congrArg ViewD.mask hc.d
  unfold deviceTry
  rw [M.null_bind, M.null_ctx, P.ctx_bind, hmd, evalDevice_lift T t hidx]
  unfold PanicsFrom at hp
  rw [devSelect] at hp
  split
  · rename_i hbit
    rw [if_pos hbit] at hp
    rw [M.null_bind, M.null_lift]
    obtain ⟨e1, -, -⟩ := locD_evalDeviceBody T idx t c _ hc.d
    rcases hd : evalDeviceBody T idx t c with ⟨c', _ | _ | typ⟩
    · rw [P.bind_none hd]
    · rw [P.bind_some hd]
      have := evalDeviceBody_none hd
      subst this
      refine hrest c' hc ?_
      rw [hd] at e1
      rcases hx : evalDeviceBody T idx t { src := q.ua, maskDeviceType := q.md } with ⟨d, y⟩
      rw [hx] at e1 hp
      have : y = some none := e1.symm
      subst this
      exact hp
    · rw [hd] at e1
      rcases hx : evalDeviceBody T idx t { src := q.ua, maskDeviceType := q.md } with ⟨d, y⟩
      rw [hx] at e1 hp
      have : y = some (some typ) := e1.symm
      subst this
      rcases hp with hp | ⟨hp, _⟩ <;> cases hp
  · rename_i hbit
    rw [if_neg hbit] at hp
    exact hrest c hc hp

theorem null_fallback {q : Req} {c : Ctx} (hs : c.src = q.ua) (hb : c.brandName64 = 0)
    (h1 : T.forceTablet.isMatch q.ua = false) (h2 : T.forceMobile.isMatch q.ua = false) (h3 : vendorOut T q.ua = none) :
    (deviceFallback T c).2 = none := by
  unfold deviceFallback
  rw [P.ctx_bind, hs, if_neg (by rw [h1]; decide), if_neg (by rw [h2]; decide)]
  unfold P.when
  rw [if_pos hb]
  have hv0 : viewV c = viewV { src := q.ua } := by simp [viewV, brandOf, hb, hs]
  obtain ⟨a, -, -⟩ := locV_vendorLoop T T.vrIdx c _ hv0
  unfold vendorOut at h3
  unfold evalVendor at h3 ⊢
  rcases hx : vendorLoop T T.vrIdx c with ⟨c', _ | y⟩
  · rw [P.bind_none hx]
  · rcases hy : vendorLoop T T.vrIdx { src := q.ua } with ⟨d, _ | z⟩
    · rw [hx, hy] at a; cases a
    · rw [hy] at h3; cases h3

theorem null_defer {α : Type} (d : Option α → M Unit) (body : M α) (c : Ctx) :
    (M.defer d body).null c = (((d (body.null c).2).null (body.null c).1).1,
      match ((d (body.null c).2).null (body.null c).1).2 with | some _ => (body.null c).2 | none => none) := by
  show ((body c).bind _).runNull = _
  rw [Prog.runNull_bind, Prog.runNull_bind]
  rfl

theorem null_notebook {q : Req} :
    ∀ c, Fresh q c → PanicsFrom T q [(DeviceTypeNotebook, dpNotebook, DeviceTypeNotebook)] →
      ((deviceTry T DeviceTypeNotebook dpNotebook DeviceTypeNotebook (M.lift (deviceFallback T))).null c).2 = none := by
  intro c hc hp
  have hmd : c.maskDeviceType = q.md := congrArg ViewD.mask hc.d
  have hsrc : c.src = q.ua := congrArg ViewD.src hc.d
  have hbr : c.brandName64 = 0 := congrArg ViewD.brandName64 hc.d
  unfold deviceTry
  rw [M.null_bind, M.null_ctx, P.ctx_bind, hmd]
  unfold PanicsFrom at hp
  rw [devSelect] at hp
  split
  · rename_i hbit
    rw [if_pos hbit] at hp
    rw [M.null_bind]
    obtain ⟨e1, -, -⟩ := locD_evalDeviceBody T dpNotebook DeviceTypeNotebook c _ hc.d
    have hev : (evalDevice T dpNotebook DeviceTypeNotebook).null c = _ := null_defer _ _ c
    rw [M.null_lift] at hev
    rcases hd : evalDeviceBody T dpNotebook DeviceTypeNotebook c with ⟨c', _ | _ | typ⟩
    · rw [hd] at hev
      have : ((evalDevice T dpNotebook DeviceTypeNotebook).null c).2 = none := by
        rw [hev]; dsimp only; split <;> rfl
      exact P.bind_none' this
    · have := evalDeviceBody_none hd
      subst this
      rw [hd] at e1
      rcases hx : evalDeviceBody T dpNotebook DeviceTypeNotebook { src := q.ua, maskDeviceType := q.md } with ⟨d, y⟩
      rw [hx] at e1 hp
      have : y = some none := e1.symm
      subst this
      simp only [devSelect] at hp
      rw [hd] at hev
      have hdef : (evalDeviceDeferred T dpNotebook (some none)).null c' =
          ((getOS T).null >>= fun os => P.when (desktopOS.contains os = true) (P.modify fun c => c.setBit flagDeviceForceDesktop)) c' := by
        unfold evalDeviceDeferred
        dsimp only
        rw [if_neg (by simp), M.null_bind]
        have : (fun os => (if desktopOS.contains os = true then M.modify fun c => c.setBit flagDeviceForceDesktop else pure () : M Unit).null) =
            fun os => P.when (desktopOS.contains os = true) (P.modify fun c => c.setBit flagDeviceForceDesktop) := by
          funext os
          unfold P.when
          split <;> rfl
        rw [this]
      obtain ⟨g1, g2⟩ := null_getOS (T := T) hc.o hc.o3
      have g3 := frameO_fields g2
      rcases hg : (getOS T).null c' with ⟨c1, _ | os⟩
      · rw [P.bind_none hg] at hdef
        have : ((evalDevice T dpNotebook DeviceTypeNotebook).null c').2 = none := by
          rw [hev]; dsimp only; rw [hdef]
        exact P.bind_none' this
      · rw [P.bind_some hg] at hdef
        rw [hg] at g1 g3
        obtain ⟨c2, hw, hw1, hw2⟩ : ∃ c2, P.when (desktopOS.contains os = true) (P.modify fun c => c.setBit flagDeviceForceDesktop) c1 = (c2, some ()) ∧
            c2.src = c1.src ∧ c2.brandName64 = c1.brandName64 := by
          unfold P.when
          split
          · exact ⟨_, rfl, rfl, rfl⟩
          · exact ⟨_, rfl, rfl, rfl⟩
        rw [hw] at hdef
        rw [hdef] at hev
        rw [P.bind_some hev]
        rcases hp with hp | ⟨_, ⟨_, hp⟩ | ⟨h1, h2, h3⟩⟩
        · cases hp
        · rw [desktop, ← g1] at hp; cases hp
        · refine null_fallback ?_ ?_ h1 h2 h3
          · rw [hw1]; exact g3.1.trans hsrc
          · rw [hw2]; exact g3.2.2.2.2.2.2.2.2.2.1.trans hbr
    · rw [hd] at e1
      rcases hx : evalDeviceBody T dpNotebook DeviceTypeNotebook { src := q.ua, maskDeviceType := q.md } with ⟨d, y⟩
      rw [hx] at e1 hp
      have : y = some (some typ) := e1.symm
      subst this
      rcases hp with hp | ⟨hp, _⟩ <;> cases hp
  · rename_i hbit
    rw [if_neg hbit] at hp
    simp only [devSelect] at hp
    rcases hp with hp | ⟨_, ⟨hp, _⟩ | ⟨h1, h2, h3⟩⟩
    · cases hp
    · exact absurd hp hbit
    · exact null_fallback hsrc hbr h1 h2 h3

theorem null_parseDevice_none {q : Req} {c : Ctx} (hc : Fresh q c) (h : devOut T q.md q.ua = none) : ((parseDevice T).null c).2 = none := by
  unfold parseDevice
  rw [null_parseFrame]
  have hp : PanicsFrom T q devCats := by
    unfold devOut at h
    unfold PanicsFrom
    rcases hs : devSelect T q.md q.ua devCats with _ | _ | ⟨t, b⟩
    · exact .inl rfl
    · right
      rw [hs] at h
      dsimp only at h
      refine ⟨rfl, ?_⟩
      by_cases hb : q.md &&& DeviceTypeNotebook ≠ 0
      · rw [if_pos hb] at h
        rcases hd : desktop T q.ua with _ | dsk
        · exact .inl ⟨hb, rfl⟩
        · right
          rw [hd] at h
          dsimp only at h
          by_cases h1 : T.forceTablet.isMatch q.ua = true
          · rw [if_pos h1] at h; cases h
          · rw [if_neg h1] at h
            by_cases h2 : T.forceMobile.isMatch q.ua = true
            · rw [if_pos h2] at h; cases h
            · rw [if_neg h2] at h
              exact ⟨by simpa using h1, by simpa using h2, by simpa using h⟩
      · right
        rw [if_neg hb] at h
        dsimp only at h
        by_cases h1 : T.forceTablet.isMatch q.ua = true
        · rw [if_pos h1] at h; cases h
        · rw [if_neg h1] at h
          by_cases h2 : T.forceMobile.isMatch q.ua = true
          · rw [if_pos h2] at h; cases h
          · rw [if_neg h2] at h
            exact ⟨by simpa using h1, by simpa using h2, by simpa using h⟩
    · rw [hs] at h; cases h
  exact null_deviceTry (by decide) (null_deviceTry (by decide) (null_deviceTry (by decide) (null_deviceTry (by decide)
    (null_deviceTry (by decide) (null_deviceTry (by decide) (null_deviceTry (by decide) null_notebook)))))) c hc hp

/-! ### Equations for `uncached` -/

theorem uncached_eq (g : Getter) (hg : g ≠ .model) (q : Req) : uncached T H g q = outAns T H q g := by
  unfold uncached
  rw [newCtx_eq]
  by_cases hgood : GoodFor T (onlyC q) (onlyD q) q.ua g
  · have := Prog.Safe.runNull (fun _ => trivial) (tri_getter (T := T) (H := H) (MC := onlyC q) (MD := onlyD q) (q := q) rfl rfl g _ (cinv_fresh _ _ q))
    exact this.uniform hg hgood (fun _ h => h) (fun _ h => h)
  · have hC : clientOut T q.mc q.ua = none → ∀ c : Ctx, c = { src := q.ua, maskClientType := q.mc, maskDeviceType := q.md, hintHash := q.hint H } →
        ((ensure flagClientDetect (parseClient T)).null c).2 = none := by
      rintro h c rfl
      exact null_ensure_none (by simp [Ctx.check]) (null_parseClient_none (q := q) (by simp [viewC, Ctx.check]) h)
    have hO : osOut T q.ua = none → ∀ c : Ctx, c = { src := q.ua, maskClientType := q.mc, maskDeviceType := q.md, hintHash := q.hint H } →
        ((ensure flagOSDetect (parseOS T)).null c).2 = none := by
      rintro h c rfl
      exact null_ensure_none (by simp [Ctx.check]) (null_parseOS_none (u := q.ua) (by simp [viewO, Ctx.check]) h)
    have hD : devOut T q.md q.ua = none → ∀ c : Ctx, c = { src := q.ua, maskClientType := q.mc, maskDeviceType := q.md, hintHash := q.hint H } →
        ((ensure flagDeviceDetect (parseDevice T)).null c).2 = none := by
      rintro h c rfl
      exact null_ensure_none (by simp [Ctx.check]) (null_parseDevice_none (q := q)
        ⟨by simp [viewD, Ctx.check], by simp [viewO, Ctx.check], by simp [Ctx.check]⟩ h)
    have hbad : (g.isC = true ∧ clientOut T q.mc q.ua = none) ∨ (g.isO = true ∧ osOut T q.ua = none) ∨ (g.isD = true ∧ devOut T q.md q.ua = none) := by
      apply Classical.byContradiction
      intro hn
      refine hgood ⟨fun h1 m hm h2 => ?_, fun h1 h2 => ?_, fun h1 m hm h2 => ?_⟩
      · cases hm; exact hn (.inl ⟨h1, h2⟩)
      · exact hn (.inr (.inl ⟨h1, h2⟩))
      · cases hm; exact hn (.inr (.inr ⟨h1, h2⟩))
    rcases hbad with ⟨h1, h2⟩ | ⟨h1, h2⟩ | ⟨h1, h2⟩
    · have hc := hC h2 _ rfl
      cases g <;> first | cases h1 | skip
      all_goals simp only [outAns, h2, Option.map_none, Option.bind_none]
      · exact null_bind_none (null_bind_none hc)
      · exact null_bind_none (null_bind_none hc)
      · refine null_bind_none ?_
        unfold getBrowserVersion
        rw [M.null_bind, M.null_ctx, P.ctx_bind]
        refine null_bind_none ?_
        rw [null_when]
        refine null_bind_none (null_bind_none hc)
      · exact null_bind_none (null_bind_none hc)
      · exact null_bind_none (null_bind_none hc)
      · refine null_bind_none ?_
        unfold getEngineVersion
        rw [M.null_bind, M.null_ctx, P.ctx_bind]
        refine null_bind_none ?_
        rw [null_when]
        refine null_bind_none (null_bind_none hc)
      · exact null_bind_none (null_bind_none hc)
    · have hc := hO h2 _ rfl
      cases g <;> first | cases h1 | skip
      all_goals simp only [outAns, osAns, h2, Option.map_none, Option.bind_none]
      · exact null_bind_none (null_bind_none hc)
      · refine null_bind_none ?_
        unfold getOSVersion
        rw [M.null_bind, M.null_ctx, P.ctx_bind]
        refine null_bind_none ?_
        rw [null_when]
        refine null_bind_none (null_bind_none hc)
      · exact null_bind_none (null_bind_none hc)
    · have hc := hD h2 _ rfl
      cases g <;> first | cases h1 | skip
      all_goals simp only [outAns, h2, Option.map_none, Option.bind_none]
      · exact null_bind_none (null_bind_none hc)
      · exact null_bind_none (null_bind_none hc)
      · exact absurd rfl hg

end
end Verif

import Verif.Proofs.Outcome
/-
Every detection method preserves the invariant, whatever the (honest) cache answers.
-/
namespace Verif

section
variable {T : Tables} {MC : Bytes → ClientType → Prop} {MD : Bytes → DeviceType → Prop} {H : Bytes → UInt64}

/-! ### Congruence -/

theorem InvC.congr {u : Bytes} {e e' : CacheEntry} (h : InvC T MC u e) (h1 : eC e' = eC e)
    (h2 : e'.bits.check flagClientDetect = e.bits.check flagClientDetect) : InvC T MC u e' := by
  intro hg; have := h hg; rw [h1, h2]; exact this

theorem InvO.congr {u : Bytes} {e e' : CacheEntry} (h : InvO T u e) (h1 : eO e' = eO e)
    (h2 : e'.bits.check flagOSDetect = e.bits.check flagOSDetect) : InvO T u e' := by
  intro hg; have := h hg; rw [h1, h2]; exact this

theorem InvD.congr {u : Bytes} {e e' : CacheEntry} (h : InvD T MD u e) (h1 : e'.deviceType = e.deviceType)
    (h2 : e'.brandName64 = e.brandName64) (h3 : e'.bits.check flagDeviceForceDesktop = e.bits.check flagDeviceForceDesktop)
    (h4 : e'.bits.check flagVendorFragment = e.bits.check flagVendorFragment)
    (h5 : e'.bits.check flagDeviceDetect = e.bits.check flagDeviceDetect) : InvD T MD u e' := by
  intro hg
  have := h hg
  simp only [eType, eBrand, EZeroD, h1, h2, h3, h4, h5] at this ⊢
  exact this

theorem Inv.same {u : Bytes} {e e' : CacheEntry} (h : Inv T MC MD u e)
    (hs : e'.bits = e.bits ∧ e'.clientType = e.clientType ∧ e'.clientName64 = e.clientName64 ∧
      e'.clientVersion64 = e.clientVersion64 ∧ e'.engineName64 = e.engineName64 ∧ e'.engineVersion64 = e.engineVersion64 ∧
      e'.deviceType = e.deviceType ∧ e'.brandName64 = e.brandName64 ∧ e'.osName64 = e.osName64 ∧ e'.osVersion64 = e.osVersion64) :
    Inv T MC MD u e' := by
  obtain ⟨h1, h2, h3, h4, h5, h6, h7, h8, h9, h10⟩ := hs
  refine ⟨h.c.congr ?_ (by rw [h1]), h.o.congr ?_ (by rw [h1]), h.d.congr h7 h8 (by rw [h1]) (by rw [h1]) (by rw [h1])⟩
  · simp [eC, h1, h2, h3, h4, h5, h6]
  · simp [eO, h1, h9, h10]

theorem Inv.sameButKey {u : Bytes} {e e' : CacheEntry} (h : Inv T MC MD u e') (hs : SameButKey e e') : Inv T MC MD u e := by
  unfold SameButKey at hs
  refine h.same ?_
  rw [← hs]; simp

/-! ### The rely and the guarantee -/

/-- Honest cache: errors, or entries satisfying the invariant. -/
def RG (T : Tables) (MC : Bytes → ClientType → Prop) (MD : Bytes → DeviceType → Prop) (k : Bytes) : GetResp → Prop
  | .miss => True
  | .nilEntry => False
  | .hit e => Inv T MC MD k e

theorem CInv.fromCache {q : Req} {c : Ctx} (h : CInv T MC MD H q c) {e : CacheEntry} (he : Inv T MC MD q.ua e) :
    CInv T MC MD H q (c.fromCache e) :=
  ⟨h.src, h.mc, h.md, h.hint, he.same (by simp [ent, CacheEntry.fromCtx, Ctx.fromCache]), h.bv, h.ev, h.ov⟩

/-! ### Client -/

theorem viewC_fresh {q : Req} {c : Ctx} (h : CInv T MC MD H q c) (hb : c.check flagClientDetect = false)
    (hg : GoodC T MC q.ua) : viewC c = viewC { src := q.ua, maskClientType := q.mc } := by
  have := h.inv.c hg
  rw [show (ent c).bits.check flagClientDetect = false from hb] at this
  simp [eC, ent, CacheEntry.fromCtx, zeroC] at this
  simp [viewC, h.src, h.mc, Ctx.check, this]

theorem frameC_fields {c c' : Ctx} (h : frameC c c') :
    c'.src = c.src ∧ c'.buf = c.buf ∧ c'.maskClientType = c.maskClientType ∧ c'.maskDeviceType = c.maskDeviceType ∧
    c'.hintHash = c.hintHash ∧ c'.clientVersion = c.clientVersion ∧ c'.engineVersion = c.engineVersion ∧ c'.osVersion = c.osVersion ∧
    c'.deviceType = c.deviceType ∧ c'.brandName64 = c.brandName64 ∧ c'.modelName64 = c.modelName64 ∧ c'.osName64 = c.osName64 ∧
    c'.osVersion64 = c.osVersion64 := by
  have := h.1
  simp [restC] at this
  simp [this]

theorem check_setBit_ne (c : Ctx) {i j : Nat} (hi : i < 64) (h : i ≠ j) : (c.setBit i).check j = c.check j := by
  simp [hi, h]

theorem cinv_detectClient {q : Req} {c : Ctx} (h : CInv T MC MD H q c) (hb : c.check flagClientDetect = false) (hm : MC q.ua q.mc) :
    CInv T MC MD H q ((detectClient T c).1.setBit flagClientDetect) ∧ ((detectClient T c).2 = none → ¬ GoodC T MC q.ua) := by
  obtain ⟨-, -, hf⟩ := locC_detectClient T c c rfl
  have hF := frameC_fields hf
  have hch : ∀ i, i ≠ flagVerConstSrc → i ≠ flagEngineForceBlink → i ≠ flagClientDetect →
      ((detectClient T c).1.setBit flagClientDetect).check i = c.check i := by
    intro i h1 h2 h3
    rw [check_setBit_ne _ (by decide) (Ne.symm h3)]
    exact hf.2 i h1 h2
  have hkey : GoodC T MC q.ua → (detectClient T c).2 ≠ none ∧
      clientOut T q.mc q.ua = some (eC (ent ((detectClient T c).1.setBit flagClientDetect))) := by
    intro hg
    obtain ⟨e1, e2, -⟩ := locC_detectClient T c _ (viewC_fresh h hb hg)
    have hne := hg q.mc hm
    unfold clientOut at hne ⊢
    rcases hd : detectClient T { src := q.ua, maskClientType := q.mc } with ⟨d, _ | r⟩
    · rw [hd] at hne; exact absurd rfl hne
    · rw [hd] at e1 e2
      refine ⟨by rw [e1]; simp, ?_⟩
      have hv := congrArg ViewC.verConst e2
      have hbk := congrArg ViewC.blink e2
      simp [viewC] at e2
      have a1 : ((detectClient T c).1.setBit flagClientDetect).check flagVerConstSrc = d.check flagVerConstSrc := by
        rw [check_setBit_ne _ (by decide) (by decide)]; exact hv
      have a2 : ((detectClient T c).1.setBit flagClientDetect).check flagEngineForceBlink = d.check flagEngineForceBlink := by
        rw [check_setBit_ne _ (by decide) (by decide)]; exact hbk
      simp only [Ctx.check] at a1 a2
      simp [eC, ent, CacheEntry.fromCtx, a1, a2]
      simp [Ctx.setBit, e2]
  refine ⟨⟨?_, ?_, ?_, ?_, ⟨?_, ?_, ?_⟩, ?_, ?_, ?_⟩, fun hn hg => (hkey hg).1 hn⟩
  · simp [Ctx.setBit, hF, h.src]
  · simp [Ctx.setBit, hF, h.mc]
  · simp [Ctx.setBit, hF, h.md]
  · simp [Ctx.setBit, hF, h.hint]
  · intro hg
    have : (ent ((detectClient T c).1.setBit flagClientDetect)).bits.check flagClientDetect = true := by
      have := Ctx.check_setBit (detectClient T c).1 flagClientDetect flagClientDetect (by decide)
      simp [Ctx.check] at this; simp [ent, CacheEntry.fromCtx, this]
    rw [if_pos this]
    exact ⟨q.mc, hm, (hkey hg).2⟩
  · refine h.inv.o.congr ?_ (hch _ (by decide) (by decide) (by decide))
    have a1 := hch flagOSBufSrc (by decide) (by decide) (by decide)
    have a2 := hch flagOSVerBufSrc (by decide) (by decide) (by decide)
    simp only [Ctx.check] at a1 a2
    simp [eO, ent, CacheEntry.fromCtx, a1, a2]
    simp [Ctx.setBit, hF]
  · refine h.inv.d.congr ?_ ?_ (hch _ (by decide) (by decide) (by decide)) (hch _ (by decide) (by decide) (by decide))
      (hch _ (by decide) (by decide) (by decide))
    · simp [ent, CacheEntry.fromCtx, Ctx.setBit, hF]
    · simp [ent, CacheEntry.fromCtx, Ctx.setBit, hF]
  · simp only [Ctx.setBit, hF]; exact h.bv
  · simp only [Ctx.setBit, hF]; exact h.ev
  · simp only [Ctx.setBit, hF]; exact h.ov

/-! ### OS -/

theorem viewO_fresh {q : Req} {c : Ctx} (h : CInv T MC MD H q c) (hb : c.check flagOSDetect = false)
    (hg : GoodO T q.ua) : viewO c = viewO { src := q.ua } := by
  have := h.inv.o hg
  rw [show (ent c).bits.check flagOSDetect = false from hb] at this
  simp [eO, ent, CacheEntry.fromCtx, zeroO] at this
  simp [viewO, h.src, Ctx.check, this]

theorem frameO_fields {c c' : Ctx} (h : frameO c c') :
    c'.src = c.src ∧ c'.buf = c.buf ∧ c'.maskClientType = c.maskClientType ∧ c'.maskDeviceType = c.maskDeviceType ∧
    c'.hintHash = c.hintHash ∧ c'.clientVersion = c.clientVersion ∧ c'.engineVersion = c.engineVersion ∧ c'.osVersion = c.osVersion ∧
    c'.deviceType = c.deviceType ∧ c'.brandName64 = c.brandName64 ∧ c'.modelName64 = c.modelName64 ∧ c'.clientType = c.clientType ∧
    c'.clientName64 = c.clientName64 ∧ c'.clientVersion64 = c.clientVersion64 ∧ c'.engineName64 = c.engineName64 ∧
    c'.engineVersion64 = c.engineVersion64 := by
  have := h.1
  simp [restO] at this
  simp [this]

theorem cinv_detectOS {q : Req} {c : Ctx} (h : CInv T MC MD H q c) (hb : c.check flagOSDetect = false) :
    CInv T MC MD H q ((detectOS T c).1.setBit flagOSDetect) ∧ ((detectOS T c).2 = none → ¬ GoodO T q.ua) := by
  obtain ⟨-, -, hf⟩ := locO_detectOS T c c rfl
  have hF := frameO_fields hf
  have hch : ∀ i, i ≠ flagOSBufSrc → i ≠ flagOSVerBufSrc → i ≠ flagOSDetect →
      ((detectOS T c).1.setBit flagOSDetect).check i = c.check i := by
    intro i h1 h2 h3
    rw [check_setBit_ne _ (by decide) (Ne.symm h3)]
    exact hf.2 i h1 h2
  have hkey : GoodO T q.ua → (detectOS T c).2 ≠ none ∧
      osOut T q.ua = some (eO (ent ((detectOS T c).1.setBit flagOSDetect))) := by
    intro hg
    obtain ⟨e1, e2, -⟩ := locO_detectOS T c _ (viewO_fresh h hb hg)
    unfold GoodO osOut at *
    rcases hd : detectOS T { src := q.ua } with ⟨d, _ | r⟩
    · rw [hd] at hg; exact absurd rfl hg
    · rw [hd] at e1 e2
      refine ⟨by rw [e1]; simp, ?_⟩
      have hv := congrArg ViewO.bufSrc e2
      have hbk := congrArg ViewO.verBufSrc e2
      simp [viewO] at e2
      have a1 : ((detectOS T c).1.setBit flagOSDetect).check flagOSBufSrc = d.check flagOSBufSrc := by
        rw [check_setBit_ne _ (by decide) (by decide)]; exact hv
      have a2 : ((detectOS T c).1.setBit flagOSDetect).check flagOSVerBufSrc = d.check flagOSVerBufSrc := by
        rw [check_setBit_ne _ (by decide) (by decide)]; exact hbk
      simp only [Ctx.check] at a1 a2
      simp [eO, ent, CacheEntry.fromCtx, a1, a2]
      simp [Ctx.setBit, e2]
  refine ⟨⟨?_, ?_, ?_, ?_, ⟨?_, ?_, ?_⟩, ?_, ?_, ?_⟩, fun hn hg => (hkey hg).1 hn⟩
  · simp [Ctx.setBit, hF, h.src]
  · simp [Ctx.setBit, hF, h.mc]
  · simp [Ctx.setBit, hF, h.md]
  · simp [Ctx.setBit, hF, h.hint]
  · refine h.inv.c.congr ?_ (hch _ (by decide) (by decide) (by decide))
    have a1 := hch flagVerConstSrc (by decide) (by decide) (by decide)
    have a2 := hch flagEngineForceBlink (by decide) (by decide) (by decide)
    simp only [Ctx.check] at a1 a2
    simp [eC, ent, CacheEntry.fromCtx, a1, a2]
    simp [Ctx.setBit, hF]
  · intro hg
    have : (ent ((detectOS T c).1.setBit flagOSDetect)).bits.check flagOSDetect = true := by
      have := Ctx.check_setBit (detectOS T c).1 flagOSDetect flagOSDetect (by decide)
      simp [Ctx.check] at this; simp [ent, CacheEntry.fromCtx, this]
    rw [if_pos this]
    exact (hkey hg).2
  · refine h.inv.d.congr ?_ ?_ (hch _ (by decide) (by decide) (by decide)) (hch _ (by decide) (by decide) (by decide))
      (hch _ (by decide) (by decide) (by decide))
    · simp [ent, CacheEntry.fromCtx, Ctx.setBit, hF]
    · simp [ent, CacheEntry.fromCtx, Ctx.setBit, hF]
  · simp only [Ctx.setBit, hF]; exact h.bv
  · simp only [Ctx.setBit, hF]; exact h.ev
  · simp only [Ctx.setBit, hF]; exact h.ov

/-! ### The common frame -/

/-- If the body leaves a context that satisfies the invariant once the detect bit is set, the whole parse method preserves it. -/
theorem tri_parseFrame {q : Req} (flag : Nat) (hflag : flag < 64) (body : M Bool) (Bad : Prop)
    (hbody : M.Tri (RG T MC MD) (Inv T MC MD) (fun c => CInv T MC MD H q c ∧ c.check flag = false) body
      (fun r c => CInv T MC MD H q (c.setBit flag) ∧ (r = none → Bad))) :
    M.Tri (RG T MC MD) (Inv T MC MD) (fun c => CInv T MC MD H q c ∧ c.check flag = false) (parseFrame flag body)
      (fun r c => CInv T MC MD H q c ∧ c.check flag = true ∧ (r = none → Bad)) := by
  intro c hc
  unfold parseFrame
  rw [M.ctx_bind, M.cacheGet_bind]
  have hdef : (M.defer (fun _ => finishParse flag) body c).Safe (RG T MC MD) (Inv T MC MD)
      (fun r => CInv T MC MD H q r.1 ∧ r.1.check flag = true ∧ (r.2 = none → Bad)) := by
    unfold M.defer
    refine (hbody c hc).bind ?_
    rintro ⟨c', r⟩ ⟨h1, h2⟩
    simp only [finishParse, M.modify_bind, M.ctx_bind, M.cacheSet_apply, Prog.bind]
    refine ⟨?_, h1, by simp [hflag], h2⟩
    have := h1.inv
    rwa [← h1.src] at this
  intro r hr
  cases r with
  | miss => exact hdef
  | nilEntry => exact hr.elim
  | hit e =>
    dsimp only
    split
    · rename_i hbit
      refine ⟨hc.1.fromCache ?_, ?_, fun h => by cases h⟩
      · have : Inv T MC MD c.src e := hr
        rwa [hc.1.src] at this
      · simpa [Ctx.check, Ctx.fromCache] using hbit
    · exact hdef

theorem tri_parseClient {q : Req} (hm : MC q.ua q.mc) :
    M.Tri (RG T MC MD) (Inv T MC MD) (fun c => CInv T MC MD H q c ∧ c.check flagClientDetect = false) (parseClient T)
      (fun r c => CInv T MC MD H q c ∧ c.check flagClientDetect = true ∧ (r = none → ¬ GoodC T MC q.ua)) := by
  refine tri_parseFrame _ (by decide) _ _ ?_
  rintro c ⟨h1, h2⟩
  exact cinv_detectClient h1 h2 hm

theorem tri_parseOS {q : Req} :
    M.Tri (RG T MC MD) (Inv T MC MD) (fun c => CInv T MC MD H q c ∧ c.check flagOSDetect = false) (parseOS T)
      (fun r c => CInv T MC MD H q c ∧ c.check flagOSDetect = true ∧ (r = none → ¬ GoodO T q.ua)) := by
  refine tri_parseFrame _ (by decide) _ _ ?_
  rintro c ⟨h1, h2⟩
  exact cinv_detectOS h1 h2

theorem tri_ensure {q : Req} (flag : Nat) (parse : M Bool) (Bad : Prop)
    (hp : M.Tri (RG T MC MD) (Inv T MC MD) (fun c => CInv T MC MD H q c ∧ c.check flag = false) parse
      (fun r c => CInv T MC MD H q c ∧ c.check flag = true ∧ (r = none → Bad))) :
    M.Tri (RG T MC MD) (Inv T MC MD) (CInv T MC MD H q) (ensure flag parse)
      (fun r c => CInv T MC MD H q c ∧ c.check flag = true ∧ (r = none → Bad)) := by
  intro c hc
  unfold ensure
  rw [M.ctx_bind]
  unfold M.when
  split
  · rename_i hf
    rw [M.bind_apply]
    refine (hp c ⟨hc, by simpa using hf⟩).bind ?_
    rintro ⟨c', _ | r⟩ ⟨h1, h2, h3⟩
    · exact ⟨h1, h2, fun _ => h3 rfl⟩
    · exact ⟨h1, h2, fun h => by cases h⟩
  · rename_i hf
    exact ⟨hc, by simpa using hf, fun h => by cases h⟩

/-- After an `ensure` the rest of a read-only getter sees a context with the detect bit set. -/
theorem tri_reader {α : Type} {q : Req} (flag : Nat) (parse : M Bool) (Bad : Prop) (rest : M α) (post : Option α → Ctx → Prop)
    (hp : M.Tri (RG T MC MD) (Inv T MC MD) (fun c => CInv T MC MD H q c ∧ c.check flag = false) parse
      (fun r c => CInv T MC MD H q c ∧ c.check flag = true ∧ (r = none → Bad)))
    (hbad : ∀ c, CInv T MC MD H q c → Bad → post none c)
    (hrest : M.Tri (RG T MC MD) (Inv T MC MD) (fun c => CInv T MC MD H q c ∧ c.check flag = true) rest post) :
    M.Tri (RG T MC MD) (Inv T MC MD) (CInv T MC MD H q) (do ensure flag parse; rest) post := by
  refine M.Tri.bind (tri_ensure flag parse Bad hp) ?_ ?_
  · rintro c ⟨h1, h2, h3⟩; exact hbad c h1 (h3 rfl)
  · rintro _ c ⟨h1, h2, h3⟩; exact hrest c ⟨h1, h2⟩

theorem safe_ofOption_map {α β : Type} {G S} {Q : Ctx × Option β → Prop} {o : Option α} {f : α → β} {c : Ctx}
    (h : Q (c, o.map f)) : ((M.ofOption o >>= fun a => (pure (f a) : M β)) c).Safe G S Q := by
  cases o <;> exact h

theorem osOut_of {q : Req} {c : Ctx} (h : CInv T MC MD H q c) (hb : c.check flagOSDetect = true) (hg : GoodO T q.ua) :
    osOut T q.ua = some (eO (ent c)) := by
  have := h.inv.o hg
  rwa [if_pos (show (ent c).bits.check flagOSDetect = true from hb)] at this

theorem clientOut_of {q : Req} {c : Ctx} (h : CInv T MC MD H q c) (hb : c.check flagClientDetect = true) (hg : GoodC T MC q.ua) :
    ∃ m, MC q.ua m ∧ clientOut T m q.ua = some (eC (ent c)) := by
  have := h.inv.c hg
  rwa [if_pos (show (ent c).bits.check flagClientDetect = true from hb)] at this

theorem tri_getOS {q : Req} :
    M.Tri (RG T MC MD) (Inv T MC MD) (CInv T MC MD H q) (getOS T)
      (fun r c => CInv T MC MD H q c ∧ (GoodO T q.ua → r = osAns T q.ua)) := by
  unfold getOS
  refine tri_reader flagOSDetect _ _ _ _ tri_parseOS (fun c hc hbad => ⟨hc, fun h => absurd h hbad⟩) ?_
  rintro c ⟨hc, hb⟩
  rw [M.ctx_bind]
  have hans : GoodO T q.ua → osAns T q.ua = osNameText T q.ua (eO (ent c)) := by
    intro hg; rw [osAns, osOut_of hc hb hg]; rfl
  have e1 : (eO (ent c)).osName64 = c.osName64 := rfl
  have e2 : (eO (ent c)).bufSrc = c.check flagOSBufSrc := rfl
  split
  · rename_i hz
    refine safe_ofOption_map ?_
    refine ⟨hc, fun hg => ?_⟩
    rw [hans hg, osNameText, e1, e2, if_pos hz, hc.src]
  · rename_i hz
    refine ⟨hc, fun hg => ?_⟩
    rw [hans hg, osNameText, e1, if_neg hz]

end
end Verif

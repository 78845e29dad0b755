import Verif.Props.Context
/-
C20: the device model and the cache; C32: the model text.
-/
namespace Verif

section
variable {T : Tables} {H : Bytes → UInt64}

/-! ### C20 -/

/-- The claim of C20: in every execution, two contexts asked for the model of the same request get the same answer. -/
def C20Claim (T : Tables) (H : Bytes → UInt64) : Prop :=
  ∀ s, Sys.Reach T H s → ∀ pre post pre' post' t t' r r',
    s.log = pre ++ .ret t (.get .model) r :: post → s.log = pre' ++ .ret t' (.get .model) r' :: post' → reqOf pre t = reqOf pre' t' → r = r'

/-- Two contexts ask for the model of the same user agent. -/
def Demo.models : Sys := Sys.init.execs Demo.tables Demo.hash
  [(0, .setUserAgent Demo.phone), (0, .get .model), (1, .setUserAgent Demo.phone), (1, .get .model)]

/-- C20 is false: the first context answers "Pixel 4", the second, served from the cache, the first seven bytes of the user agent. -/
theorem C20_refuted : ¬ C20Claim Demo.tables Demo.hash := by
  intro h
  have := h Demo.models (reach_execs _ .init) (Demo.models.log.take 3) (Demo.models.log.drop 4) (Demo.models.log.take 7) [] 0 1
    (some (some (.text (ascii "Pixel 4")))) (some (some (.text (ascii "Mozilla")))) (by decide +kernel) (by decide +kernel) (by decide +kernel)
  revert this
  decide +kernel

/-- All Sets of a method run without cache hits. -/
def Prog.setsNull {α : Type} : Prog α → List (Bytes × CacheEntry)
  | .ret _ => []
  | .get _ f => (f .miss).setsNull
  | .set k e p => (k, e) :: p.setsNull

theorem Prog.setsNull_bind {α β : Type} (p : Prog α) (f : α → Prog β) : (p.bind f).setsNull = p.setsNull ++ (f p.runNull).setsNull := by
  induction p with
  | ret a => rfl
  | get k g ih => exact ih .miss
  | set k e p ih => simp only [Prog.bind, Prog.setsNull, Prog.runNull, List.cons_append, ih]

theorem setsNull_parseFrame (flag : Nat) (body : M Bool) (c : Ctx) :
    (parseFrame flag body c).setsNull = (body c).setsNull ++
      [(((body.null c).1.setBit flag).src, CacheEntry.fromCtx {} ((body.null c).1.setBit flag))] := by
  unfold parseFrame
  rw [M.ctx_bind, M.cacheGet_bind]
  simp only [Prog.setsNull]
  unfold M.defer
  rw [Prog.setsNull_bind, Prog.setsNull_bind]
  rfl

/-- The entry GetModel leaves in the cache after a first detection: it has the device bit, the user agent instead of the model buffer as
data, and the model at offset 0 (or no model). -/
theorem C20_stored {q : Req} (hD : uncached T H .model q ≠ none) :
    ∃ e mo, (Getter.model.prog T (q.newCtx H)).setsNull.getLast? = some (q.ua, e) ∧ ModelIs T q.md q.ua mo ∧
      e.bits.check flagDeviceDetect = true ∧ e.data = q.ua ∧
      e.modelName64 = Entry64.encode 0 (UInt32.ofNat (mo.getD []).length) := by
  have hs : (q.newCtx H).src = q.ua := by rw [newCtx_eq]
  have hm : (q.newCtx H).maskDeviceType = q.md := by rw [newCtx_eq]
  have hb : (q.newCtx H).buf = [] := by rw [newCtx_eq]
  have h0 : (q.newCtx H).modelName64 = 0 := by rw [newCtx_eq]
  have hbit : (q.newCtx H).check flagDeviceDetect = false := by rw [newCtx_eq]; simp [Ctx.check]
  have hn : ((detectDevice T).null (q.newCtx H)).2 ≠ none := by
    intro h
    apply hD
    refine null_bind_none (null_bind_none (null_ensure_none hbit ?_))
    unfold parseDevice
    rw [null_parseFrame]; exact h
  obtain ⟨mo, h1, h2⟩ := scan_detectDevice hs hm hn
  refine ⟨CacheEntry.fromCtx {} (((detectDevice T).null (q.newCtx H)).1.setBit flagDeviceDetect), mo, ?_, h1, ?_, ?_, ?_⟩
  · have e1 : (Getter.model.prog T (q.newCtx H)).setsNull = (parseDevice T (q.newCtx H)).setsNull := by
      show (M.map _ (getModel T) (q.newCtx H)).setsNull = _
      have tail : ∀ (c : Ctx), ((if c.modelName64 ≠ 0 then (do let raw ← M.ofOption (sliceE? c.buf c.modelName64); pure (trim 32 raw)) else pure [] : M Bytes) c).setsNull = [] := by
        intro c
        split
        · cases sliceE? c.buf c.modelName64 <;> rfl
        · rfl
      have e2 : (getModel T (q.newCtx H)).setsNull = (parseDevice T (q.newCtx H)).setsNull := by
        unfold getModel
        rw [M.bind_apply, Prog.setsNull_bind]
        have e3 : (ensure flagDeviceDetect (parseDevice T) (q.newCtx H)).setsNull = (parseDevice T (q.newCtx H)).setsNull := by
          unfold ensure M.when
          rw [M.ctx_bind, if_pos (by rw [hbit]; decide), M.bind_apply, Prog.setsNull_bind]
          rcases (parseDevice T (q.newCtx H)).runNull with ⟨c, _ | a⟩ <;> simp [Prog.setsNull]
        rw [e3]
        rcases (ensure flagDeviceDetect (parseDevice T) (q.newCtx H)).runNull with ⟨c, _ | a⟩
        · simp [Prog.setsNull]
        · dsimp only
          rw [M.ctx_bind, tail, List.append_nil]
      unfold M.map
      rw [M.bind_apply, Prog.setsNull_bind, e2]
      rcases (getModel T (q.newCtx H)).runNull with ⟨c, _ | a⟩ <;> simp [Prog.setsNull]
    rw [e1]
    unfold parseDevice
    rw [setsNull_parseFrame, List.getLast?_append]
    show some (((detectDevice T).null (q.newCtx H)).1.src, _) = _
    rw [h2.src, hs]
  · show (((detectDevice T).null (q.newCtx H)).1.setBit flagDeviceDetect).check flagDeviceDetect = true
    rw [Ctx.check_setBit _ _ _ (by decide)]; simp
  · show ((detectDevice T).null (q.newCtx H)).1.src = _
    rw [h2.src, hs]
  · show ((detectDevice T).null (q.newCtx H)).1.modelName64 = _
    rw [h2.mod]
    cases mo with
    | none => rw [modelAt, h0]; rfl
    | some t => rw [modelAt, hb]; rfl

/-- What GetModel does after that entry is found: it returns the (trimmed) beginning of the user agent, as many bytes of it as the model
has, and panics if the user agent is shorter than the model. -/
theorem C20_actual {q q' : Req} (hu : q'.ua = q.ua) {e : CacheEntry} {mo : Option Bytes} (hbit : e.bits.check flagDeviceDetect = true)
    (hdata : e.data = q.ua) (hmod : e.modelName64 = Entry64.encode 0 (UInt32.ofNat (mo.getD []).length)) (hl : (mo.getD []).length < 2 ^ 32) :
    ∃ f c, Getter.model.prog T (q'.newCtx H) = .get q.ua f ∧
      f (.hit e) = .ret (c, if (mo.getD []).length ≤ q.ua.length then some (.text (trim 32 (q.ua.take (mo.getD []).length))) else none) := by
  have hs : (q'.newCtx H).src = q.ua := by rw [newCtx_eq]; exact hu
  have hb : (q'.newCtx H).check flagDeviceDetect = false := by rw [newCtx_eq]; simp [Ctx.check]
  have e1 : ∃ F, parseDevice T (q'.newCtx H) = .get q.ua F ∧ F (.hit e) = .ret ((q'.newCtx H).fromCache e, some true) := by
    unfold parseDevice parseFrame
    rw [M.ctx_bind, M.cacheGet_bind, hs]
    refine ⟨_, rfl, ?_⟩
    dsimp only
    rw [if_pos hbit]
    rfl
  obtain ⟨F, hF, hF'⟩ := e1
  have e2 : ∃ f, Getter.model.prog T (q'.newCtx H) = .get q.ua f ∧
      f (.hit e) = M.map Ans.text (do
        let c ← M.ctx
        if c.modelName64 ≠ 0 then
          let raw ← M.ofOption (sliceE? c.buf c.modelName64)
          pure (trim 32 raw)
        else pure []) ((q'.newCtx H).fromCache e) := by
    show ∃ f, M.map Ans.text (getModel T) (q'.newCtx H) = .get q.ua f ∧ _
    unfold M.map getModel ensure M.when
    rw [M.bind_apply, M.bind_apply, M.ctx_bind, if_pos (by rw [hb]; decide), M.bind_apply, hF]
    refine ⟨_, rfl, ?_⟩
    dsimp only
    rw [hF']
    rfl
  obtain ⟨f, h1, h2⟩ := e2
  have hslice : sliceE? q.ua e.modelName64 = if (mo.getD []).length ≤ q.ua.length then some (q.ua.take (mo.getD []).length) else none := by
    rw [hmod]
    unfold sliceE?
    rw [C42_decode_encode]
    have : (UInt32.ofNat (mo.getD []).length).toNat = (mo.getD []).length := by rw [UInt32.toNat_ofNat']; omega
    rw [this]
    unfold slice?
    by_cases hle : (mo.getD []).length ≤ q.ua.length
    · rw [if_pos hle, if_pos (by simp; omega)]; simp
    · rw [if_neg hle, if_neg (by simp; omega)]
  refine ⟨f, (q'.newCtx H).fromCache e, h1, ?_⟩
  rw [h2]
  unfold M.map
  rw [M.bind_apply, M.ctx_bind]
  have hm' : ((q'.newCtx H).fromCache e).modelName64 = e.modelName64 := rfl
  have hb' : ((q'.newCtx H).fromCache e).buf = q.ua := hdata
  rw [hm', hb']
  split
  · rw [M.bind_apply, hslice]
    split <;> rfl
  · rename_i hz
    have hz : e.modelName64 = 0 := by simpa using hz
    rw [hz] at hmod
    have := (C42_zero _ _).mp hmod.symm
    have h3 : (mo.getD []).length = 0 := by
      have h4 : (UInt32.ofNat (mo.getD []).length).toNat = 0 := by rw [this.2]; rfl
      rw [UInt32.toNat_ofNat'] at h4; omega
    rw [h3]
    rfl

/-- The demo phone: the first context stores the entry, the second gets "Mozilla". -/
example : ∃ e mo f c, (Getter.model.prog Demo.tables (({ ua := Demo.phone } : Req).newCtx Demo.hash)).setsNull.getLast? = some (Demo.phone, e) ∧
    ModelIs Demo.tables DeviceTypeAll Demo.phone mo ∧ Getter.model.prog Demo.tables (({ ua := Demo.phone } : Req).newCtx Demo.hash) = .get Demo.phone f ∧
    f (.hit e) = .ret (c, if (mo.getD []).length ≤ Demo.phone.length then some (.text (trim 32 (Demo.phone.take (mo.getD []).length))) else none) := by
  obtain ⟨e, mo, h1, h2, h3, h4, h5⟩ := C20_stored (T := Demo.tables) (H := Demo.hash) (q := { ua := Demo.phone }) (by decide +kernel)
  have hl : (mo.getD []).length < 2 ^ 32 := Nat.lt_of_le_of_lt h2.length_le (by decide +kernel)
  obtain ⟨f, c, h6, h7⟩ := C20_actual (T := Demo.tables) (H := Demo.hash) (q := { ua := Demo.phone }) (q' := { ua := Demo.phone }) rfl h3 h4 h5 hl
  exact ⟨e, mo, f, c, h1, h2, h6, h7⟩

/-- C20, what holds: without a cache hit GetModel gives the right model, at any point of a sequence of calls. -/
theorem C20_uncached_partial (q : Req) (gs : List Getter) (hok : ∀ g ∈ gs, uncached T H g q ≠ none) (hm : uncached T H .model q ≠ none)
    (hsize : (gs.length + 1) * growth T q.ua + modelBound T q.ua < 2 ^ 32) :
    (answersNull T (gs ++ [.model]) (q.newCtx H)).getLast? = some (uncached T H .model q) := by
  rw [C21_order (H := H) (T := T) q (gs ++ [Getter.model]) (by simp only [List.mem_append, List.mem_singleton]; exact fun g h => h.elim (hok g) (fun h => h ▸ hm)) (by simpa using hsize)]
  simp

/-! ### C32 -/

/-- C32: without cache the model is the text of the rule found, with `$1`..`$3` replaced by the groups of the rule's match (`Expands`) and
outer blanks trimmed; the empty text if the rule has no model or no rule matches. -/
theorem C32_model {q : Req} (hw : WFdev T q.ua) (hlen : q.ua.length < 2 ^ 32) (hsize : modelBound T q.ua < 2 ^ 32) :
    ∃ mo s, ModelIs T q.md q.ua mo ∧ Trimmed (mo.getD []) s ∧ uncached T H .model q = some (.text s) := by
  obtain ⟨mo, h1, h2⟩ := uncached_model (T := T) (H := H) (q := q) hsize (devOut_total hw hlen q.md)
  exact ⟨mo, _, h1, trim_spec _, h2⟩

/-- C32, converse: the text is determined by the rules. -/
theorem C32_model_iff {q : Req} (hw : WFdev T q.ua) (hlen : q.ua.length < 2 ^ 32) (hsize : modelBound T q.ua < 2 ^ 32) (s : Bytes) :
    uncached T H .model q = some (.text s) ↔ ∃ mo, ModelIs T q.md q.ua mo ∧ Trimmed (mo.getD []) s := by
  obtain ⟨mo, s', h1, h2, h3⟩ := C32_model (H := H) hw hlen hsize
  rw [h3]
  constructor
  · rintro h
    cases h
    exact ⟨mo, h1, h2⟩
  · rintro ⟨mo', h4, h5⟩
    rw [h1.unique h4] at h2
    rw [h2.unique h5]

example : ∃ mo, ModelIs Demo.tables DeviceTypeAll Demo.phone mo ∧ Trimmed (mo.getD []) (ascii "Pixel 4") :=
  (C32_model_iff (T := Demo.tables) (H := Demo.hash) (q := { ua := Demo.phone }) (Demo.tables_wf _).toWFdev (by decide +kernel) (by decide +kernel) _).mp
    (by decide +kernel)

end
end Verif

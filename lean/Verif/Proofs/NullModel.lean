import Verif.Proofs.Uncached
import Verif.Proofs.DevOut
import Verif.Proofs.Unique
import Verif.Proofs.Shape
/-
The device model of a context that never gets anything from the cache: what it denotes, and that other calls leave it alone.
-/
namespace Verif
variable {T : Tables} {H : Bytes → UInt64}

theorem ModelIs.unique {m : DeviceType} {u : Bytes} {a b : Option Bytes} (ha : ModelIs T m u a) (hb : ModelIs T m u b) : a = b := by
  obtain ⟨d, v, t, h1, h2⟩ | ⟨h1, rfl⟩ := ha <;> obtain ⟨d', v', t', h1', h2'⟩ | ⟨h1', rfl⟩ := hb
  · obtain ⟨rfl, rfl⟩ := h1.unique h1'
    exact (h2.unique h2').1
  · exact absurd h1' h1.not_none
  · exact absurd h1 h1'.not_none
  · rfl

/-! ### What leaves the model alone -/

/-- The parts of the context the model depends on are unchanged. -/
structure Keep (c c' : Ctx) : Prop where
  src : c'.src = c.src
  md : c'.maskDeviceType = c.maskDeviceType
  buf : c'.buf = c.buf
  mod : c'.modelName64 = c.modelName64
  dev : c'.check flagDeviceDetect = c.check flagDeviceDetect

theorem Keep.refl (c : Ctx) : Keep c c := ⟨rfl, rfl, rfl, rfl, rfl⟩
theorem Keep.trans {a b c : Ctx} (h : Keep a b) (h' : Keep b c) : Keep a c :=
  ⟨h'.src.trans h.src, h'.md.trans h.md, h'.buf.trans h.buf, h'.mod.trans h.mod, h'.dev.trans h.dev⟩

def P.Keeps {α : Type} (x : P α) : Prop := ∀ c, Keep c (x c).1

namespace P.Keeps
theorem pure {α : Type} (a : α) : P.Keeps (Pure.pure a) := fun c => .refl c
theorem ofOption {α : Type} (o : Option α) : P.Keeps (P.ofOption o) := fun c => .refl c
theorem bind {α β : Type} {x : P α} {f : α → P β} (hx : x.Keeps) (hf : ∀ a, (f a).Keeps) : (x >>= f).Keeps := by
  intro c
  have := hx c
  rw [P.bind_apply]
  revert this
  rcases x c with ⟨c', _ | a⟩
  · exact id
  · exact fun h => h.trans (hf a c')
theorem ctx {β : Type} {f : Ctx → P β} (hf : ∀ a, (f a).Keeps) : (P.ctx >>= f).Keeps := fun c => hf c c
theorem when {p : Prop} [Decidable p] {x : P Unit} (h : x.Keeps) : (P.when p x).Keeps := by
  unfold P.when
  split
  · exact h
  · exact pure ()
end P.Keeps

theorem keep_setBit (c : Ctx) {n : Nat} (hn : n < 64) (h : n ≠ flagDeviceDetect) : Keep c (c.setBit n) :=
  ⟨rfl, rfl, rfl, rfl, by rw [Ctx.check_setBit _ _ _ hn, decide_eq_false h]; rfl⟩

theorem keeps_flag {n : Nat} (hn : n < 64) (h : n ≠ flagDeviceDetect) : P.Keeps (P.modify fun c => c.setBit n) := fun c => keep_setBit c hn h

theorem keeps_detectClient : (detectClient T).Keeps := by
  intro c
  have h := (locC_detectClient T c c rfl).2.2
  have h1 := h.1
  simp [restC] at h1
  exact ⟨by simp [h1], by simp [h1], by simp [h1], by simp [h1], h.2 _ (by decide) (by decide)⟩

theorem keeps_detectOS : (detectOS T).Keeps := by
  intro c
  have h := (locO_detectOS T c c rfl).2.2
  have h1 := h.1
  simp [restO] at h1
  exact ⟨by simp [h1], by simp [h1], by simp [h1], by simp [h1], h.2 _ (by decide) (by decide)⟩

theorem keeps_frame {flag : Nat} {x : P Bool} (hx : x.Keeps) (hn : flag < 64) (h : flag ≠ flagDeviceDetect) :
    (parseFrame flag (M.lift x)).null.Keeps := by
  intro c
  rw [null_parseFrame, M.null_lift]
  exact (hx c).trans (keep_setBit _ hn h)

theorem keeps_ensure {flag : Nat} {parse : M Bool} (hp : parse.null.Keeps) : (ensure flag parse).null.Keeps := by
  unfold ensure
  rw [M.null_bind]
  refine .ctx fun c => ?_
  rw [null_when]
  refine .when ?_
  rw [M.null_bind]
  exact .bind hp fun _ => .pure ()

theorem keeps_client : (ensure flagClientDetect (parseClient T)).null.Keeps :=
  keeps_ensure (keeps_frame keeps_detectClient (by decide) (by decide))
theorem keeps_os : (ensure flagOSDetect (parseOS T)).null.Keeps :=
  keeps_ensure (keeps_frame keeps_detectOS (by decide) (by decide))

theorem keeps_getOS : (getOS T).null.Keeps := by
  unfold getOS
  rw [M.null_bind]
  refine .bind keeps_os fun _ => ?_
  rw [M.null_bind]
  refine .ctx fun c => ?_
  dsimp only
  split
  · rw [M.null_bind]
    exact .bind (.ofOption _) fun _ => .pure _
  · exact .pure _

theorem keeps_fallback : (deviceFallback T).Keeps := by
  unfold deviceFallback
  refine .ctx fun c => ?_
  split
  · exact .bind (fun c => ⟨rfl, rfl, rfl, rfl, rfl⟩) fun _ => .pure _
  · split
    · exact .bind (fun c => ⟨rfl, rfl, rfl, rfl, rfl⟩) fun _ => .pure _
    · refine .bind (.when ?_) fun _ => .pure _
      intro c
      have h := (locV_vendorLoop T T.vrIdx c c rfl).2.2
      have h1 := h.1
      simp at h1
      exact ⟨by simp [evalVendor, h1], by simp [evalVendor, h1], by simp [evalVendor, h1], by simp [evalVendor, h1], h.2 _ (by decide)⟩

/-! ### Device detection -/

/-- Offsets of the model after storing `mo` in `c`. -/
def modelAt (c : Ctx) : Option Bytes → Entry64
  | none => c.modelName64
  | some t => Entry64.encode (UInt32.ofNat c.buf.length) (UInt32.ofNat (c.buf ++ t).length)

/-- `c'` is `c` with the model text `mo` stored. -/
structure Stored (mo : Option Bytes) (c c' : Ctx) : Prop where
  src : c'.src = c.src
  md : c'.maskDeviceType = c.maskDeviceType
  dev : c'.check flagDeviceDetect = c.check flagDeviceDetect
  buf : c'.buf = c.buf ++ mo.getD []
  mod : c'.modelName64 = modelAt c mo

theorem Stored.of_keep {c c' : Ctx} (h : Keep c c') : Stored none c c' := ⟨h.src, h.md, h.dev, by simp [h.buf], h.mod⟩

theorem Keep.stored {a b c : Ctx} {mo : Option Bytes} (h : Keep a b) (h' : Stored mo b c) : Stored mo a c := by
  refine ⟨h'.src.trans h.src, h'.md.trans h.md, h'.dev.trans h.dev, by rw [h'.buf, h.buf], ?_⟩
  rw [h'.mod]
  cases mo with
  | none => exact h.mod
  | some t => simp only [modelAt, h.buf]

theorem stored_withModel (c : Ctx) (w : List BufOp) (mo : Option Bytes) : Stored mo c (c.withModel w mo) := by
  cases mo with
  | none => exact ⟨rfl, rfl, rfl, by simp [Ctx.withModel], rfl⟩
  | some t => exact ⟨rfl, rfl, rfl, rfl, rfl⟩

/-- Outcome of the scan over the categories `cats`, started in `c`. -/
def ScanPost (T : Tables) (m : DeviceType) (u : Bytes) (cats : List (DeviceType × Nat × DeviceType)) (c : Ctx) (r : Ctx × Option Bool) : Prop :=
  r.2 ≠ none → (DTried T m u cats none ∧ Keep c r.1) ∨ ∃ d v mo typ, DTried T m u cats (some (d, v, mo, typ)) ∧ Stored mo c r.1

/-- Outcome of one category. -/
def EvalPost (T : Tables) (u : Bytes) (idx : Nat) (d : DeviceType) (c c' : Ctx) : Option DeviceType → Prop
  | none => NoDevice T u idx ∧ Keep c c'
  | some typ => ∃ rows x mo, T.drIdx[idx]? = some rows ∧ First (DeviceMatch T u) rows x ∧ DeviceRes T u x d mo typ ∧ Stored mo c c'

theorem evalDevice_null {u : Bytes} {idx : Nat} (hidx : idx < 8) {d : DeviceType} {c c' : Ctx} {o : Option DeviceType} (hu : c.src = u)
    (h : (evalDevice T idx d).null c = (c', some o)) : EvalPost T u idx d c c' o := by
  unfold evalDevice at h
  rw [null_defer, M.null_lift] at h
  have hb := (out_evalDeviceBody (T := T) (u := u) (E := True) (c := c) hu hidx (d := d) (.inl trivial)).1
  rcases hx : evalDeviceBody T idx d c with ⟨c1, _ | _ | typ⟩
  · rw [hx] at h
    dsimp only at h
    injection h with _ h
    split at h <;> cases h
  · rw [hx] at h hb
    obtain ⟨h1, h4⟩ := hb none rfl
    have h4 : c1 = c := h4
    subst h4
    dsimp only at h
    injection h with h2 h3
    split at h3
    · cases h3
      refine ⟨h1, ?_⟩
      rw [← h2]
      have : (evalDeviceDeferred T idx (some none)).null.Keeps := by
        unfold evalDeviceDeferred
        dsimp only
        split
        · exact .pure ()
        · rw [M.null_bind]
          refine .bind keeps_getOS fun os => ?_
          split
          · exact keeps_flag (by decide) (by decide)
          · exact .pure ()
      exact this c1
    · cases h3
  · rw [hx] at h hb
    obtain ⟨rows, x, mo, w, h1, h2, h3, h4⟩ := hb (some typ) rfl
    have e : (evalDeviceDeferred T idx (some (some typ))).null c1 = (c1, some ()) := rfl
    dsimp only at h
    rw [e] at h
    injection h with h5 h6
    cases h6
    refine ⟨rows, x, mo, h1, h2, h3, ?_⟩
    rw [← h5, show c1 = _ from h4]
    have := stored_withModel ({ c with brandName64 := x.brand64 } : Ctx) w mo
    refine ⟨this.src, this.md, this.dev, this.buf, ?_⟩
    rw [this.mod]
    cases mo <;> rfl

theorem scan_try {m : DeviceType} {u : Bytes} {bit : DeviceType} {idx : Nat} {t : DeviceType} {cats} (hidx : idx < 8) {rest : M Bool}
    (hrest : ∀ c, c.src = u → c.maskDeviceType = m → ScanPost T m u cats c (rest.null c)) :
    ∀ c, c.src = u → c.maskDeviceType = m → ScanPost T m u ((bit, idx, t) :: cats) c ((deviceTry T bit idx t rest).null c) := by
  intro c hu hm hn
  unfold deviceTry at hn ⊢
  rw [M.null_bind, M.null_ctx, P.ctx_bind, hm] at hn ⊢
  split
  · rename_i hbit
    rw [if_pos hbit, M.null_bind] at hn
    rw [M.null_bind]
    rcases hev : (evalDevice T idx t).null c with ⟨c1, _ | o⟩
    · rw [P.bind_none hev] at hn; exact absurd rfl hn
    · rw [P.bind_some hev] at hn ⊢
      have hb := evalDevice_null (u := u) hidx hu hev
      cases o with
      | none =>
        obtain ⟨h1, h2⟩ := hb
        rcases hrest c1 (h2.src.trans hu) (h2.md.trans hm) hn with ⟨h3, h4⟩ | ⟨d, v, mo, typ, h3, h4⟩
        · exact .inl ⟨.miss hbit h1 h3, h2.trans h4⟩
        · exact .inr ⟨d, v, mo, typ, .miss hbit h1 h3, h2.stored h4⟩
      | some typ =>
        obtain ⟨rows, x, mo, h1, h2, h3, h4⟩ := hb
        exact .inr ⟨t, x, mo, typ, .hit hbit h1 h2 h3, ⟨h4.src, h4.md, h4.dev, h4.buf, h4.mod⟩⟩
  · rename_i hbit
    rw [if_neg hbit] at hn
    have hbit : m &&& bit = 0 := by simpa using hbit
    rcases hrest c hu hm hn with ⟨h3, h4⟩ | ⟨d, v, mo, typ, h3, h4⟩
    · exact .inl ⟨.skip hbit h3, h4⟩
    · exact .inr ⟨d, v, mo, typ, .skip hbit h3, h4⟩

theorem scan_detectDevice {m : DeviceType} {u : Bytes} {c : Ctx} (hu : c.src = u) (hm : c.maskDeviceType = m) (hn : ((detectDevice T).null c).2 ≠ none) :
    ∃ mo, ModelIs T m u mo ∧ Stored mo c ((detectDevice T).null c).1 := by
  have h : ScanPost T m u devCats c ((detectDevice T).null c) :=
    scan_try (by decide) (scan_try (by decide) (scan_try (by decide) (scan_try (by decide) (scan_try (by decide) (scan_try (by decide)
      (scan_try (by decide) (scan_try (by decide) fun c _ _ _ => .inl ⟨.nil, by rw [M.null_lift]; exact keeps_fallback c⟩))))))) c hu hm
  rcases h hn with ⟨h1, h2⟩ | ⟨d, v, mo, typ, h1, h2⟩
  · exact ⟨none, .inr ⟨h1.chosen, rfl⟩, .of_keep h2⟩
  · exact ⟨mo, .inl ⟨d, v, typ, h1.chosen.2, h1.chosen.1⟩, h2⟩


/-! ### Bounds -/

theorem Captures.length_le {re : Re} {u : Bytes} {i : Nat} {t : Bytes} (h : Captures re u i t) : t.length ≤ u.length := by
  obtain ⟨m, a, z, -, rfl, -⟩ := h
  simp; omega

theorem Text.length_le {buf : Bytes} {e : Entry64} {t : Bytes} (h : Text buf e t) : t.length ≤ buf.length := by
  obtain ⟨a, z, rfl, -⟩ := h
  simp; omega

theorem Expands.length_le {re : Re} {u raw t : Bytes} (h : Expands re u raw t) : t.length ≤ raw.length * (u.length + 1) := by
  induction h with
  | nil => simp
  | char _ _ ih => simp only [List.length_cons, Nat.add_mul]; omega
  | stop => simp
  | group _ hg _ ih =>
    have := hg.length_le
    simp only [List.length_cons, List.length_append, Nat.add_mul]; omega
  | dollar hg _ ih =>
    have := hg.length_le
    simp only [List.length_cons, List.length_append, Nat.add_mul] at ih ⊢; omega

theorem ModelText.length_le {u : Bytes} {ri : Int} {raw t : Bytes} (h : ModelText T u ri raw t) : t.length ≤ raw.length * (u.length + 1) := by
  obtain ⟨-, re, -, h⟩ | ⟨-, rfl⟩ := h
  · exact h.length_le
  · exact Nat.le_mul_of_pos_right _ (by omega)

/-- Length of the model of a row: the text itself or the template. -/
def templateLen (w : ModelTuple) : Nat := w.model64.toNat % 4294967296 - w.model64.toNat / 4294967296

/-- Length of the longest one. -/
def templateMax (T : Tables) : Nat := (T.drDm.map templateLen).foldr max 0

/-- No model text is longer. -/
def modelBound (T : Tables) (u : Bytes) : Nat := templateMax T * (u.length + 1)

theorem le_foldr_max {n : Nat} : ∀ {l : List Nat}, n ∈ l → n ≤ l.foldr max 0
  | [], h => by cases h
  | x :: l, h => by
    rw [List.foldr_cons]
    rcases List.mem_cons.mp h with rfl | h
    · exact Nat.le_max_left _ _
    · exact Nat.le_trans (le_foldr_max h) (Nat.le_max_right _ _)

theorem foldr_max_le {n : Nat} : ∀ {l : List Nat}, (∀ x ∈ l, x ≤ n) → l.foldr max 0 ≤ n
  | [], _ => Nat.zero_le _
  | x :: l, h => by
    rw [List.foldr_cons]
    exact Nat.max_le.mpr ⟨h x (by simp), foldr_max_le fun y hy => h y (List.mem_cons_of_mem _ hy)⟩

theorem Text.length_template {w : ModelTuple} {t : Bytes} (h : Text T.drBuf w.model64 t) (hw : w ∈ T.drDm) : t.length ≤ templateMax T := by
  refine Nat.le_trans ?_ (le_foldr_max (List.mem_map_of_mem hw))
  obtain ⟨a, z, -, h1, h2⟩ := h
  unfold templateLen
  omega

theorem ModelIs.length_le {m : DeviceType} {u : Bytes} {mo : Option Bytes} (h : ModelIs T m u mo) : (mo.getD []).length ≤ modelBound T u := by
  have key : ∀ {ri w raw t}, w ∈ T.drDm → Text T.drBuf w.model64 raw → ModelText T u ri raw t → t.length ≤ modelBound T u := by
    intro ri w raw t h0 h1 h2
    exact Nat.le_trans h2.length_le (Nat.mul_le_mul_right _ (h1.length_template h0))
  obtain ⟨d, v, typ, -, h⟩ | ⟨-, rfl⟩ := h
  · cases h with
    | single _ _ hm hr ht => exact key (List.mem_of_getElem? hm) hr ht
    | model _ _ hm hr ht => exact key (List.mem_of_mem_drop (List.mem_of_mem_take hm.mem.1)) hr ht
    | noModel => simp
    | plain => simp
  · simp

theorem text_append {buf z : Bytes} {e : Entry64} {t : Bytes} (h : Text buf e t) : Text (buf ++ z) e t := by
  obtain ⟨a, y, rfl, h1, h2⟩ := h
  exact ⟨a, y ++ z, by simp, h1, h2⟩

theorem modelAt_text {c : Ctx} {mo : Option Bytes} (h0 : c.modelName64 = 0) (hl : (c.buf ++ mo.getD []).length < 2 ^ 32) :
    Text (c.buf ++ mo.getD []) (modelAt c mo) (mo.getD []) := by
  cases mo with
  | none => exact ⟨[], c.buf, by simp, by simp [modelAt, h0], by simp [modelAt, h0]⟩
  | some t =>
    simp only [List.length_append, Option.getD_some] at hl
    refine ⟨c.buf, [], by simp, ?_, ?_⟩ <;>
    simp only [modelAt, encode_toNat, UInt32.toNat_ofNat', List.length_append, Option.getD_some] <;> omega

/-! ### The model between calls -/

/-- What is known of the model between calls on a context that never got anything from the cache. -/
structure MInv (T : Tables) (q : Req) (n : Nat) (c : Ctx) : Prop where
  len : c.buf.length ≤ n + if c.check flagDeviceDetect = true then modelBound T q.ua else 0
  fresh : c.check flagDeviceDetect = false → c.modelName64 = 0
  set : c.check flagDeviceDetect = true → ∃ mo, ModelIs T q.md q.ua mo ∧ Text c.buf c.modelName64 (mo.getD [])

/-- Like `Keep`, but up to `n` bytes may be appended to the buffer. -/
def Grow (n : Nat) (c c' : Ctx) : Prop := ∃ t, t.length ≤ n ∧ Keep { c with buf := c.buf ++ t } c'

theorem Keep.grow {c c' : Ctx} (h : Keep c c') (n : Nat) : Grow n c c' := ⟨[], by simp, by simpa using h⟩

theorem MInv.grow {q : Req} {n k : Nat} {c c' : Ctx} (h : MInv T q n c) (hg : Grow k c c') : MInv T q (n + k) c' := by
  obtain ⟨t, ht, hk⟩ := hg
  have hd : c'.check flagDeviceDetect = c.check flagDeviceDetect := hk.dev
  have hm : c'.modelName64 = c.modelName64 := hk.mod
  refine ⟨?_, fun h' => ?_, fun h' => ?_⟩
  · have := h.len
    rw [hd, hk.buf]
    simp only [List.length_append]; omega
  · rw [hm]; exact h.fresh (hd ▸ h')
  · obtain ⟨mo, h1, h2⟩ := h.set (hd ▸ h')
    refine ⟨mo, h1, ?_⟩
    rw [hm, hk.buf]
    exact text_append h2

/-- Effect of `if !c.CheckBit(..) { c.parseDevice() }`. -/
theorem MInv.ensure {q : Req} {n : Nat} {c : Ctx} (h : MInv T q n c) (hs : c.src = q.ua) (hm : c.maskDeviceType = q.md)
    (hl : n + modelBound T q.ua < 2 ^ 32) (hn : ((ensure flagDeviceDetect (parseDevice T)).null c).2 ≠ none) :
    MInv T q n ((ensure flagDeviceDetect (parseDevice T)).null c).1 ∧
      ((ensure flagDeviceDetect (parseDevice T)).null c).1.check flagDeviceDetect = true := by
  cases hb : c.check flagDeviceDetect with
  | true =>
    have e : (Verif.ensure flagDeviceDetect (parseDevice T)).null c = (c, some ()) := by
      unfold Verif.ensure
      rw [M.null_bind, M.null_ctx, P.ctx_bind, null_when]
      unfold P.when
      rw [if_neg (by rw [hb]; decide)]
      rfl
    rw [e]
    exact ⟨h, hb⟩
  | false =>
    have e := null_ensure hb (show (parseDevice T).null c = _ from null_parseFrame _ _ c)
    rw [e] at hn ⊢
    have hn' : ((detectDevice T).null c).2 ≠ none := by
      intro h'; rw [h'] at hn; exact hn rfl
    obtain ⟨mo, h1, h2⟩ := scan_detectDevice hs hm hn'
    have h0 := h.fresh hb
    have hlen := h.len
    rw [if_neg (by rw [hb]; decide)] at hlen
    have hle := h1.length_le
    have hbit : (((detectDevice T).null c).1.setBit flagDeviceDetect).check flagDeviceDetect = true := by
      rw [Ctx.check_setBit _ _ _ (by decide)]; simp
    refine ⟨⟨?_, fun h' => ?_, fun _ => ⟨mo, h1, ?_⟩⟩, hbit⟩
    · rw [if_pos hbit]
      show ((detectDevice T).null c).1.buf.length ≤ _
      rw [h2.buf]
      simp only [List.length_append]; omega
    · rw [hbit] at h'; cases h'
    · show Text ((detectDevice T).null c).1.buf ((detectDevice T).null c).1.modelName64 _
      rw [h2.buf, h2.mod]
      exact modelAt_text h0 (by simp only [List.length_append]; omega)

/-- What the device getters do after the detection. -/
theorem null_getModel {q : Req} {n : Nat} {c : Ctx} (h : MInv T q n c) (hs : c.src = q.ua) (hm : c.maskDeviceType = q.md)
    (hl : n + modelBound T q.ua < 2 ^ 32) (hn : ((ensure flagDeviceDetect (parseDevice T)).null c).2 ≠ none) :
    ∃ mo c', ModelIs T q.md q.ua mo ∧ MInv T q n c' ∧ (getModel T).null c = (c', some (trim 32 (mo.getD []))) := by
  obtain ⟨h1, h2⟩ := h.ensure hs hm hl hn
  obtain ⟨mo, h3, h4⟩ := h1.set h2
  refine ⟨mo, _, h3, h1, ?_⟩
  rcases he : (ensure flagDeviceDetect (parseDevice T)).null c with ⟨c', _ | _⟩
  · rw [he] at hn; exact absurd rfl hn
  rw [he] at h1 h2 h4
  unfold getModel
  rw [M.null_bind, P.bind_some he, M.null_bind, M.null_ctx, P.ctx_bind]
  split
  · rw [M.null_bind, M.null_ofOption, P.ofOption_bind_some (sliceE_iff.mpr h4)]
    rfl
  · rename_i hz
    have hz : c'.modelName64 = 0 := by simpa using hz
    have : mo.getD [] = [] := by
      have h4 : Text c'.buf c'.modelName64 _ := h4
      rw [hz] at h4
      obtain ⟨a, z, -, -, e⟩ := h4
      have : (mo.getD []).length = 0 := by
        have : (0 : UInt64).toNat % 2 ^ 32 = 0 := rfl
        omega
      exact List.length_eq_zero_iff.mp this
    rw [this]
    rfl


/-! ### Every getter -/

/-- Bytes a getter other than the device ones can append to the buffer. -/
def growth (T : Tables) (u : Bytes) : Nat := T.orBuf.length + u.length

theorem Grow.keep {n : Nat} {a b c : Ctx} (h : Grow n a b) (h' : Keep b c) : Grow n a c := by
  obtain ⟨t, h1, h2⟩ := h
  exact ⟨t, h1, h2.trans h'⟩

theorem Keep.grow' {n : Nat} {a b c : Ctx} (h : Keep a b) (h' : Grow n b c) : Grow n a c := by
  obtain ⟨t, h1, h2⟩ := h'
  refine ⟨t, h1, h2.src.trans h.src, h2.md.trans h.md, ?_, h2.mod.trans h.mod, h2.dev.trans h.dev⟩
  rw [h2.buf]
  show b.buf ++ t = a.buf ++ t
  rw [h.buf]

theorem keeps_map {α β : Type} {f : α → β} {x : M α} (h : x.null.Keeps) : (M.map f x).null.Keeps := by
  unfold M.map
  rw [M.null_bind]
  exact .bind h fun _ => .pure _

theorem keeps_reader {α : Type} {x : M Unit} {f : Ctx → M α} (h : x.null.Keeps) (hf : ∀ a, (f a).null.Keeps) : (x >>= fun _ => M.ctx >>= f).null.Keeps := by
  rw [M.null_bind]
  refine .bind h fun _ => ?_
  rw [M.null_bind]
  exact .ctx hf

theorem keeps_ofOption_map {α β : Type} {o : Option α} {f : α → M β} (hf : ∀ a, (f a).null.Keeps) : (M.ofOption o >>= f).null.Keeps := by
  rw [M.null_bind]
  exact .bind (.ofOption _) hf

theorem keeps_getBrowserVersionString : (getBrowserVersionString T).null.Keeps := by
  unfold getBrowserVersionString
  refine keeps_reader keeps_client fun c => ?_
  split
  · exact keeps_ofOption_map fun _ => .pure _
  · exact .pure _

theorem keeps_getEngineVersionString : (getEngineVersionString T).null.Keeps := by
  unfold getEngineVersionString
  refine keeps_reader keeps_client fun c => ?_
  split
  · exact .ofOption _
  · exact .pure _

theorem keeps_version {str : M Bytes} (get : Ctx → Version) (put : Ctx → Version → Ctx) (hput : ∀ c v, Keep c (put c v)) (h : str.null.Keeps) :
    M.null (do
        let c ← M.ctx
        M.when (¬ (get c).p = true) do
          let raw ← str
          M.modify fun c => put c ((get c).parse raw).1
        let c ← M.ctx
        pure (get c)) |>.Keeps := by
  rw [M.null_bind]
  refine .ctx fun c => ?_
  rw [M.null_bind]
  refine .bind ?_ fun _ => ?_
  · rw [null_when]
    refine .when ?_
    rw [M.null_bind]
    exact .bind h fun _ c => hput c _
  · rw [M.null_bind]
    exact .ctx fun _ => .pure _

theorem grow_getOSVersionString {c : Ctx} {u : Bytes} (hu : c.src = u) : Grow (growth T u) c ((getOSVersionString T).null c).1 := by
  unfold getOSVersionString
  rw [M.null_bind]
  have hk := keeps_os (T := T) c
  revert hk
  rcases he : (ensure flagOSDetect (parseOS T)).null c with ⟨c', _ | _⟩
  · intro hk; rw [P.bind_none he]; exact hk.grow _
  · intro hk
    rw [P.bind_some he, M.null_bind, M.null_ctx, P.ctx_bind]
    refine Keep.grow' hk ?_
    have hu' : c'.src = u := hk.src.trans hu
    split
    · dsimp only
      rw [M.null_bind, M.null_ofOption]
      rcases hs : sliceE? (if c'.check flagOSVerBufSrc = true then T.orBuf else c'.src) c'.osVersion64 with _ | raw
      · exact (Keep.refl _).grow _
      · rw [P.ofOption_bind_some rfl]
        have hlen := (sliceE_iff.mp hs).length_le
        split
        · refine ⟨raw.map fun b => if b = 95 then 46 else b, ?_, ?_⟩
          · rw [List.length_map]
            unfold growth
            rw [hu'] at hlen
            split at hlen <;> omega
          · exact ⟨rfl, rfl, rfl, rfl, rfl⟩
        · exact (Keep.refl _).grow _
    · exact (Keep.refl _).grow _

theorem grow_getOSVersion {c : Ctx} {u : Bytes} (hu : c.src = u) : Grow (growth T u) c ((getOSVersion T).null c).1 := by
  unfold getOSVersion
  rw [M.null_bind, M.null_ctx, P.ctx_bind, M.null_bind, null_when]
  unfold P.when
  split
  · rw [M.null_bind]
    have hg := grow_getOSVersionString (T := T) hu
    revert hg
    rcases he : (getOSVersionString T).null c with ⟨c', _ | raw⟩
    · intro hg
      rw [P.bind_none (c' := c')]
      · exact hg
      · exact P.bind_none he
    · intro hg
      rw [P.bind_some (c' := { c' with osVersion := (c'.osVersion.parse raw).1 }) (a := ())]
      · exact hg.keep ⟨rfl, rfl, rfl, rfl, rfl⟩
      · rw [P.bind_some he]; rfl
  · exact (Keep.refl _).grow _

theorem grow_map {α β : Type} {n : Nat} {f : α → β} {x : M α} {c : Ctx} (h : Grow n c (x.null c).1) : Grow n c ((M.map f x).null c).1 := by
  unfold M.map
  rw [M.null_bind]
  revert h
  rcases he : x.null c with ⟨c', _ | a⟩
  · rw [P.bind_none he]; exact id
  · rw [P.bind_some he]; exact id

theorem null_map {α β : Type} (f : α → β) (x : M α) (c : Ctx) : (M.map f x).null c = ((x.null c).1, (x.null c).2.map f) := by
  unfold M.map
  rw [M.null_bind]
  rcases he : x.null c with ⟨c', _ | a⟩
  · rw [P.bind_none he]; rfl
  · rw [P.bind_some he]; rfl

/-- Getters that do not detect the device. -/
theorem grow_getter (g : Getter) (hg : g.isD = false) {c : Ctx} {u : Bytes} (hu : c.src = u) : Grow (growth T u) c ((g.prog T).null c).1 := by
  have hp : ∀ {α : Type} (o : Option α), (M.ofOption o).null.Keeps := fun o => .ofOption o
  cases g <;> first | cases hg | skip
  · exact (Keep.refl _).grow _
  · refine (keeps_map ?_ c).grow _
    exact keeps_reader keeps_client fun _ => .pure _
  · refine (keeps_map ?_ c).grow _
    unfold getBrowser
    refine keeps_reader keeps_client fun _ => ?_
    have key : ∀ eb : Entry64 × Bytes, (if eb.1 > 0 then M.ofOption (sliceE? eb.2 eb.1) else pure unknown : M Bytes).null.Keeps := by
      intro eb; split
      · exact .ofOption _
      · exact .pure _
    exact key _
  · exact (keeps_map (keeps_version (fun c => c.clientVersion) (fun c v => { c with clientVersion := v }) (fun _ _ => ⟨rfl, rfl, rfl, rfl, rfl⟩)
      keeps_getBrowserVersionString) c).grow _
  · exact (keeps_map keeps_getBrowserVersionString c).grow _
  · refine (keeps_map ?_ c).grow _
    unfold getEngine
    refine keeps_reader keeps_client fun _ => ?_
    split
    · exact .pure _
    · split
      · exact .ofOption _
      · exact .pure _
  · exact (keeps_map (keeps_version (fun c => c.engineVersion) (fun c v => { c with engineVersion := v }) (fun _ _ => ⟨rfl, rfl, rfl, rfl, rfl⟩)
      keeps_getEngineVersionString) c).grow _
  · exact (keeps_map keeps_getEngineVersionString c).grow _
  · exact (keeps_map keeps_getOS c).grow _
  · exact grow_map (grow_getOSVersion hu)
  · exact grow_map (grow_getOSVersionString hu)

/-- A getter reading device results after detection: detection must have succeeded, and nothing else changes the context. -/
theorem null_deviceReader {α : Type} {f : Ctx → M α} (hf : ∀ c, ((f c).null c).1 = c) (c : Ctx)
    (hn : (((ensure flagDeviceDetect (parseDevice T)) >>= fun _ => M.ctx >>= f).null c).2 ≠ none) :
    ((ensure flagDeviceDetect (parseDevice T)).null c).2 ≠ none ∧
      (((ensure flagDeviceDetect (parseDevice T)) >>= fun _ => M.ctx >>= f).null c).1 = ((ensure flagDeviceDetect (parseDevice T)).null c).1 := by
  rw [M.null_bind] at hn ⊢
  rcases he : (ensure flagDeviceDetect (parseDevice T)).null c with ⟨c', _ | _⟩
  · rw [P.bind_none he] at hn; exact absurd rfl hn
  · rw [P.bind_some he, M.null_bind, M.null_ctx, P.ctx_bind]
    exact ⟨by simp, hf c'⟩

theorem reader_getDeviceType (c : Ctx) (hn : ((getDeviceType T).null c).2 ≠ none) :
    ((ensure flagDeviceDetect (parseDevice T)).null c).2 ≠ none ∧
      ((getDeviceType T).null c).1 = ((ensure flagDeviceDetect (parseDevice T)).null c).1 := by
  refine null_deviceReader (fun c => ?_) c hn
  split <;> rfl

theorem reader_getBrand (c : Ctx) (hn : ((getBrand T).null c).2 ≠ none) :
    ((ensure flagDeviceDetect (parseDevice T)).null c).2 ≠ none ∧
      ((getBrand T).null c).1 = ((ensure flagDeviceDetect (parseDevice T)).null c).1 := by
  refine null_deviceReader (fun c => ?_) c hn
  split
  · rw [M.null_bind, M.null_ofOption]
    cases sliceE? (if c.check flagVendorFragment = true then T.vrBuf else T.drBuf) c.brandName64 <;> rfl
  · rfl

theorem reader_getModel (c : Ctx) (hn : ((getModel T).null c).2 ≠ none) :
    ((ensure flagDeviceDetect (parseDevice T)).null c).2 ≠ none ∧
      ((getModel T).null c).1 = ((ensure flagDeviceDetect (parseDevice T)).null c).1 := by
  refine null_deviceReader (fun c => ?_) c hn
  split
  · rw [M.null_bind, M.null_ofOption]
    cases sliceE? c.buf c.modelName64 <;> rfl
  · rfl

/-- Every getter preserves what is known of the model, and GetModel answers it. -/
theorem MInv.getter {q : Req} {n : Nat} {c : Ctx} (h : MInv T q n c) (hs : c.src = q.ua) (hm : c.maskDeviceType = q.md)
    (hl : n + modelBound T q.ua < 2 ^ 32) (g : Getter) (hn : ((g.prog T).null c).2 ≠ none) :
    MInv T q (n + growth T q.ua) ((g.prog T).null c).1 ∧
      (g = .model → ∃ mo, ModelIs T q.md q.ua mo ∧ ((g.prog T).null c).2 = some (.text (trim 32 (mo.getD [])))) := by
  have hD : ∀ c', MInv T q n c' → MInv T q (n + growth T q.ua) c' := fun c' h' => h'.grow ((Keep.refl _).grow _)
  have hx : ∀ {α β : Type} {f : α → β} {x : M α}, ((M.map f x).null c).2 ≠ none → (x.null c).2 ≠ none := by
    intro α β f x h1 h2
    rw [null_map, h2] at h1
    exact h1 rfl
  cases hg : g.isD with
  | false => exact ⟨h.grow (grow_getter g hg hs), by rintro rfl; cases hg⟩
  | true =>
    cases g <;> first | cases hg | skip
    · obtain ⟨h1, h2⟩ := reader_getDeviceType c (hx hn)
      refine ⟨hD _ ?_, fun h => by cases h⟩
      show MInv T q n ((M.map _ (getDeviceType T)).null c).1
      rw [null_map, h2]
      exact (h.ensure hs hm hl h1).1
    · obtain ⟨h1, h2⟩ := reader_getBrand c (hx hn)
      refine ⟨hD _ ?_, fun h => by cases h⟩
      show MInv T q n ((M.map _ (getBrand T)).null c).1
      rw [null_map, h2]
      exact (h.ensure hs hm hl h1).1
    · obtain ⟨h1, -⟩ := reader_getModel c (hx hn)
      obtain ⟨mo, c', h2, h3, h4⟩ := null_getModel h hs hm hl h1
      have e : (Getter.model.prog T).null c = (c', some (.text (trim 32 (mo.getD [])))) := by
        show (M.map _ (getModel T)).null c = _
        rw [null_map, h4]
        rfl
      rw [e]
      exact ⟨hD _ h3, fun _ => ⟨mo, h2, rfl⟩⟩

theorem MInv.new (q : Req) : MInv T q 0 (q.newCtx H) := by
  rw [newCtx_eq]
  exact ⟨by simp, fun _ => rfl, fun h => by simp [Ctx.check] at h⟩

/-- Device detection of `q` succeeds: GetModel answers, without cache, the text of the rule found. -/
theorem uncached_model {q : Req} (hl : modelBound T q.ua < 2 ^ 32) (hD : devOut T q.md q.ua ≠ none) :
    ∃ mo, ModelIs T q.md q.ua mo ∧ uncached T H .model q = some (.text (trim 32 (mo.getD []))) := by
  have hd : uncached T H .deviceType q ≠ none := by
    rw [uncached_eq _ (by decide)]
    unfold outAns
    cases h : devOut T q.md q.ua with
    | none => exact absurd h hD
    | some o => simp
  have hc := cinv_fresh (T := T) (H := H) (onlyC q) (onlyD q) q
  rw [← newCtx_eq] at hc
  have h1 : ((getDeviceType T).null (q.newCtx H)).2 ≠ none := by
    intro h
    apply hd
    show ((M.map _ (getDeviceType T)).null (q.newCtx H)).2 = none
    rw [null_map, h]
    rfl
  obtain ⟨mo, c', h2, h3, h4⟩ := null_getModel (MInv.new q) hc.src hc.md (by simpa using hl) (reader_getDeviceType _ h1).1
  refine ⟨mo, h2, ?_⟩
  show ((M.map _ (getModel T)).null (q.newCtx H)).2 = _
  rw [null_map, h4]
  rfl

/-- Device detection of `q` fails: so does GetModel. -/
theorem uncached_model_none {q : Req} (hD : devOut T q.md q.ua = none) : uncached T H .model q = none := by
  unfold uncached
  rw [newCtx_eq]
  refine null_bind_none (null_bind_none (null_ensure_none (by simp [Ctx.check]) (null_parseDevice_none (q := q)
        ⟨by simp [viewD, Ctx.check], by simp [viewO, Ctx.check], by simp [Ctx.check]⟩ hD)))

end Verif

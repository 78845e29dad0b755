import Verif.Proofs.Template
/-
Device and vendor detection described by `Spec/Rules`; no panic on well-formed tables (see `Proofs/Client` for the parameter `E`).
-/
namespace Verif
variable {T : Tables} {u : Bytes} {E : Prop}

/-- `c` after storing model text `t` by the writes `w`. -/
def Ctx.withModel (c : Ctx) (w : List BufOp) : Option Bytes → Ctx
  | none => c
  | some t => { c with buf := c.buf ++ t, writes := c.writes ++ w, modelName64 := Entry64.encode (UInt32.ofNat c.buf.length) (UInt32.ofNat (c.buf ++ t).length) }

theorem out_bufModel {c : Ctx} (raw : Bytes) : P.Out E (bufModel raw c) (fun _ c' => c' = c.withModel [.append raw] (some raw)) :=
  ⟨fun _ _ => rfl, fun h => by cases h⟩

theorem out_deviceBufMNE {c : Ctx} {e : Entry64} (hE : E ∨ InBuf T.drBuf e) :
    P.Out E (deviceBufMNE T e c) (fun _ c' => ∃ raw w, Text T.drBuf e raw ∧ c' = c.withModel w (some raw)) := by
  unfold deviceBufMNE
  refine .ofOption_bind ?_ fun raw hraw => ?_
  · intro hn
    refine hE.resolve_right fun ⟨t, ht⟩ => ?_
    rw [← sliceE_iff, hn] at ht; cases ht
  · exact (out_bufModel raw).mono fun _ _ h => ⟨raw, _, sliceE_iff.mp hraw, h⟩

theorem out_deviceBufMNE1 {c : Ctx} (hu : c.src = u) {e : Entry64} {re : Re}
    (hE : E ∨ (InBuf T.drBuf e ∧ re.WF ∧ ∀ t, Text T.drBuf e t → t.getLast? ≠ some 36)) :
    P.Out E (deviceBufMNE1 T e re c) (fun _ c' => ∃ raw t w, Text T.drBuf e raw ∧ Expands re u raw t ∧ c' = c.withModel w (some t)) := by
  subst hu
  unfold deviceBufMNE1
  refine .ofOption_bind ?_ fun raw hraw => ?_
  · intro hn
    refine hE.resolve_right fun ⟨⟨t, ht⟩, _⟩ => ?_
    rw [← sliceE_iff, hn] at ht; cases ht
  have hT := sliceE_iff.mp hraw
  cases hp : indexByte raw 36 with
  | none => exact (out_bufModel raw).mono fun _ _ h => ⟨raw, raw, _, hT, expands_plain _ (indexByte_none' hp), h⟩
  | some p =>
    obtain ⟨z, e1, e2, e3, e4, e5⟩ := indexByte_some hp
    dsimp only
    rw [P.ctx_bind]
    refine .bind (mid := fun _ c' => c' = c.app (raw.take p) [.append (raw.take p)]) ⟨fun _ _ => rfl, fun h => by cases h⟩ ?_
    rintro _ _ rfl
    have hp36 : raw[p]? = some 36 := by
      have : (raw.drop p)[0]? = some 36 := by rw [e4]; rfl
      rw [List.getElem?_drop] at this; exact this
    refine .bind (out_mneLoop (E := E) (hE.imp id fun ⟨_, h1, h2⟩ => ⟨h1, h2 raw hT⟩) raw.length p (c.app (raw.take p) [.append (raw.take p)]) (by omega) hp36) ?_
    rintro _ _ ⟨t, w, ht, rfl⟩
    refine ⟨fun _ _ => ⟨raw, raw.take p ++ t, [.append (raw.take p)] ++ w, hT, ?_, ?_⟩, fun h => by cases h⟩
    · have := Expands.prefix _ e3 ht
      rwa [List.take_append_drop] at this
    · rw [c.app_app]
      rfl

theorem deviceTypeOfText_eq (s : Bytes) (d : DeviceType) : deviceTypeOfText s d = (typeNames.lookup s).getD d := by
  have step : ∀ (a : Bytes) (t x : DeviceType) (l : List (Bytes × DeviceType)), x = (l.lookup s).getD d →
      (if s = a then t else x) = (((a, t) :: l).lookup s).getD d := by
    intro a t x l hx
    rw [List.lookup_cons]
    split
    · rename_i h; rw [show (s == a) = true by simp [h]]; rfl
    · rename_i h; rw [show (s == a) = false by simp [h]]; exact hx
  exact step _ _ _ _ (step _ _ _ _ (step _ _ _ _ (step _ _ _ _ (step _ _ _ _ (step _ _ _ _ rfl)))))

theorem typeNames_nil (d : DeviceType) : (typeNames.lookup []).getD d = d := by
  rw [show typeNames.lookup [] = none by decide +kernel]; rfl

theorem deviceEvalType_iff {a b : Entry64} {d typ : DeviceType} (h : deviceEvalType T a b d = some typ) : TypeOf T a b d typ := by
  unfold deviceEvalType at h
  simp only [bind, Option.bind] at h
  cases ha : sliceE? T.drBuf a with
  | none => rw [ha] at h; cases h
  | some ra =>
    rw [ha] at h
    dsimp only at h
    by_cases h0 : ra.length = 0
    · rw [if_pos h0] at h
      cases hb : sliceE? T.drBuf b with
      | none => rw [hb] at h; cases h
      | some rb =>
        rw [hb] at h
        dsimp only at h
        have hnil : ra = [] := List.length_eq_zero_iff.mp h0
        subst hnil
        refine ⟨rb, .inr ⟨sliceE_iff.mp ha, sliceE_iff.mp hb⟩, ?_⟩
        split at h
        · rename_i h1
          rw [List.length_eq_zero_iff.mp h1, typeNames_nil]
          injection h with h; exact h.symm
        · rw [deviceTypeOfText_eq] at h
          injection h with h; exact h.symm
    · rw [if_neg h0, ha] at h
      dsimp only at h
      rw [if_neg h0, deviceTypeOfText_eq] at h
      injection h with h
      exact ⟨ra, .inl ⟨fun h => h0 (by simp [h]), sliceE_iff.mp ha⟩, h.symm⟩

theorem deviceEvalType_total {a b : Entry64} {d : DeviceType} (ha : InBuf T.drBuf a) (hb : InBuf T.drBuf b) : deviceEvalType T a b d ≠ none := by
  obtain ⟨ra, ha⟩ := ha
  obtain ⟨rb, hb⟩ := hb
  rw [← sliceE_iff] at ha hb
  unfold deviceEvalType
  simp only [bind, Option.bind, ha]
  split
  · rename_i h
    split at h <;> simp_all
  · dsimp only; split <;> simp [pure]

theorem out_evalType {c : Ctx} {a b : Entry64} {d : DeviceType} (hE : E ∨ (InBuf T.drBuf a ∧ InBuf T.drBuf b)) :
    P.Out E (P.ofOption (deviceEvalType T a b d) c) (fun typ c' => c' = c ∧ TypeOf T a b d typ) :=
  .ofOption (fun hn => hE.resolve_right fun ⟨h1, h2⟩ => deviceEvalType_total h1 h2 hn) fun _ h => ⟨rfl, deviceEvalType_iff h⟩

theorem deviceMatch_iff (v : DeviceTuple) : rowB T.drRe T.drBuf u v.matchRI v.match64 = true ↔ DeviceMatch T u v := rowB_iff _ _ _ _ _
theorem modelMatch_iff (v : ModelTuple) : rowB T.drRe T.drBuf u v.matchRI v.match64 = true ↔ ModelMatch T u v := rowB_iff _ _ _ _ _

theorem out_deviceLoop {c : Ctx} (hu : c.src = u) (ir : List DeviceTuple) (hE : E ∨ ∀ v ∈ ir, DeviceRowWF T v) :
    P.Out E (deviceLoop T ir c) (fun o c' => c' = c ∧ Found (DeviceMatch T u) ir o) := by
  induction ir with
  | nil => exact .ret ⟨rfl, by simp [Found]⟩
  | cons v ir ih =>
    have ih := ih (hE.imp id fun h => fun w hw => h w (List.mem_cons_of_mem _ hw))
    have next : ¬ DeviceMatch T u v → P.Out E (deviceLoop T ir c) (fun o c' => c' = c ∧ Found (DeviceMatch T u) (v :: ir) o) :=
      fun hn => ih.mono fun o c' ⟨h1, h2⟩ => ⟨h1, h2.cons_neg hn⟩
    have hb := deviceMatch_iff (T := T) (u := u) v
    unfold rowB at hb
    rw [deviceLoop, P.ctx_bind, hu]
    by_cases hri : v.matchRI ≥ 0
    · rw [if_pos hri] at hb ⊢
      refine .ofOption_bind ?_ fun re hre => ?_
      · intro hn
        refine hE.resolve_right fun h => ?_
        obtain ⟨re, h1⟩ := (h v (by simp)).re hri
        rw [index_eq _ hri, h1] at hn; cases hn
      · rw [hre] at hb
        dsimp only at hb
        split
        · rename_i hm
          exact .ret ⟨rfl, First.cons_pos (hb.mp hm)⟩
        · rename_i hm
          exact next fun h => hm (hb.mpr h)
    · rw [if_neg hri] at hb ⊢
      refine .ofOption_bind ?_ fun si hsi => ?_
      · intro hn
        refine hE.resolve_right fun h => ?_
        obtain ⟨t, ht⟩ := (h v (by simp)).lit (by omega)
        rw [sliceE_iff.mpr ht] at hn; cases hn
      · rw [hsi] at hb
        dsimp only at hb
        rw [decide_eq_true_iff] at hb
        split
        · rename_i hm
          exact .ret ⟨rfl, First.cons_pos (hb.mp hm)⟩
        · rename_i hm
          exact next fun h => hm (hb.mpr h)

/-- What the model loop yields. -/
def ModelRes (T : Tables) (u : Bytes) (x : DeviceTuple) (d : DeviceType) (rows : List ModelTuple) (mo : Option Bytes) (typ : DeviceType) : Prop :=
  (mo = none ∧ typ = d ∧ ∀ w ∈ rows, ¬ ModelMatch T u w) ∨
  ∃ w raw t, mo = some t ∧ First (ModelMatch T u) rows w ∧ Text T.drBuf w.model64 raw ∧ ModelText T u w.matchRI raw t ∧
    TypeOf T w.type64 x.type64 d typ

theorem out_modelLoop {c : Ctx} (hu : c.src = u) {x : DeviceTuple} {d : DeviceType}
    (hE : E ∨ (WFdev T u ∧ InBuf T.drBuf x.type64)) : ∀ (n i : Nat), (E ∨ n = 0 ∨ i + n ≤ T.drDm.length) →
    P.Out E (modelLoop T x d n i c) (fun typ c' => ∃ mo wr, c' = c.withModel wr mo ∧ ModelRes T u x d ((T.drDm.drop i).take n) mo typ) := by
  intro n
  induction n with
  | zero => intro i _; exact .ret ⟨none, [], rfl, .inl ⟨rfl, rfl, by simp⟩⟩
  | succ n ih =>
    intro i hn
    rw [modelLoop, P.ctx_bind, hu]
    refine .ofOption_bind ?_ fun m hm => ?_
    · intro h
      refine hn.resolve_right fun h' => ?_
      rw [List.getElem?_eq_none_iff] at h
      omega
    have hlt : i < T.drDm.length := by
      rcases Nat.lt_or_ge i T.drDm.length with h | h
      · exact h
      · rw [List.getElem?_eq_none h] at hm; cases hm
    have hrows : (T.drDm.drop i).take (n + 1) = m :: (T.drDm.drop (i + 1)).take n := by
      rw [List.drop_eq_getElem_cons hlt, List.take_succ_cons]
      rw [List.getElem?_eq_getElem hlt] at hm
      injection hm with hm; rw [hm]
    have hmem : m ∈ T.drDm := List.mem_of_getElem? hm
    have ih := ih (i + 1) (hn.imp id fun h => by omega)
    have next : ¬ ModelMatch T u m → P.Out E (modelLoop T x d n (i + 1) c)
        (fun typ c' => ∃ mo wr, c' = c.withModel wr mo ∧ ModelRes T u x d ((T.drDm.drop i).take (n + 1)) mo typ) := by
      intro hno
      refine ih.mono ?_
      rintro typ c' ⟨mo, wr, h1, h2⟩
      refine ⟨mo, wr, h1, ?_⟩
      rw [hrows]
      obtain ⟨h3, h4, h5⟩ | ⟨w, raw, t, h3, h4, h5⟩ := h2
      · exact .inl ⟨h3, h4, fun w hw => (List.mem_cons.mp hw).elim (fun e => e ▸ hno) (h5 w)⟩
      · exact .inr ⟨w, raw, t, h3, First.cons_neg hno h4, h5⟩
    have hb := modelMatch_iff (T := T) (u := u) m
    have hz : ¬ m.matchRI ≥ 0 → m.match64 = 0 → ¬ ModelMatch T u m := fun h1 h2 h3 => by
      rw [← hb, h2, rowB_zero _ _ _ h1] at h3; cases h3
    unfold rowB at hb
    by_cases hri : m.matchRI ≥ 0
    · rw [if_pos hri] at hb ⊢
      refine .ofOption_bind ?_ fun re hre => ?_
      · intro hn
        refine hE.resolve_right fun h => ?_
        obtain ⟨re, h1⟩ := (h.1.drDm m hmem).re hri
        rw [index_eq _ hri, h1] at hn; cases hn
      · rw [hre] at hb
        dsimp only at hb
        rw [index_eq _ hri] at hre
        split
        · rename_i hm'
          refine .bind (out_deviceBufMNE1 (E := E) hu (hE.imp id fun h => ⟨(h.1.drDm m hmem).model, h.1.drRe _ (List.mem_of_getElem? hre), (h.1.drDm m hmem).tmpl⟩)) ?_
          rintro _ _ ⟨raw, t, wr, h1, h2, rfl⟩
          refine (out_evalType (E := E) (hE.imp id fun h => ⟨(h.1.drDm m hmem).typ, h.2⟩)).mono ?_
          rintro typ _ ⟨rfl, h3⟩
          refine ⟨some t, wr, rfl, .inr ⟨m, raw, t, rfl, ?_, h1, .inl ⟨hri, re, hre, h2⟩, h3⟩⟩
          rw [hrows]
          exact First.cons_pos (hb.mp hm')
        · rename_i hm'
          exact next fun h => hm' (hb.mpr h)
    · rw [if_neg hri] at hb ⊢
      by_cases h64 : m.match64 ≠ 0
      · rw [if_pos h64]
        refine .ofOption_bind ?_ fun si hsi => ?_
        · intro hn
          refine hE.resolve_right fun h => ?_
          obtain ⟨t, ht⟩ := (h.1.drDm m hmem).lit (by omega)
          rw [sliceE_iff.mpr ht] at hn; cases hn
        · rw [hsi] at hb
          dsimp only at hb
          rw [decide_eq_true_iff] at hb
          split
          · rename_i hm'
            refine .bind (out_deviceBufMNE (E := E) (hE.imp id fun h => (h.1.drDm m hmem).model)) ?_
            rintro _ _ ⟨raw, wr, h1, rfl⟩
            refine (out_evalType (E := E) (hE.imp id fun h => ⟨(h.1.drDm m hmem).typ, h.2⟩)).mono ?_
            rintro typ _ ⟨rfl, h3⟩
            refine ⟨some raw, wr, rfl, .inr ⟨m, raw, raw, rfl, ?_, h1, .inr ⟨by omega, rfl⟩, h3⟩⟩
            rw [hrows]
            exact First.cons_pos (hb.mp hm')
          · rename_i hm'
            exact next fun h => hm' (hb.mpr h)
      · rw [if_neg h64]
        exact next (hz hri (by simpa using h64))

theorem out_deviceFill {c : Ctx} (hu : c.src = u) {x : DeviceTuple} {d : DeviceType} (hE : E ∨ (WFdev T u ∧ DeviceRowWF T x)) :
    P.Out E (deviceFill T x d c) (fun typ c' => ∃ mo wr, c' = ({ c with brandName64 := x.brand64 } : Ctx).withModel wr mo ∧ DeviceRes T u x d mo typ) := by
  unfold deviceFill
  refine .bind (mid := fun _ c' => c' = { c with brandName64 := x.brand64 }) ⟨fun _ _ => rfl, fun h => by cases h⟩ ?_
  rintro _ _ rfl
  generalize hc1 : ({ c with brandName64 := x.brand64 } : Ctx) = c1
  have hu1 : c1.src = u := by rw [← hc1]; exact hu
  by_cases hsi : x.modelSI ≠ -1
  · rw [if_pos hsi]
    refine .ofOption_bind ?_ fun sm hsm => ?_
    · intro hn
      refine hE.resolve_right fun ⟨_, h⟩ => ?_
      obtain ⟨h1, h2⟩ := h.model hsi
      rw [index_eq _ h1, List.getElem?_eq_none_iff] at hn
      omega
    have h0 : 0 ≤ x.modelSI := by
      unfold index? at hsm
      split at hsm
      · cases hsm
      · omega
    rw [index_eq _ h0] at hsm
    have hmem := List.mem_of_getElem? hsm
    refine .bind (mid := fun _ c' => ∃ raw t wr, Text T.drBuf sm.model64 raw ∧ ModelText T u x.matchRI raw t ∧ c' = c1.withModel wr (some t)) ?_ ?_
    · split
      · rename_i hri
        refine .ofOption_bind ?_ fun re hre => ?_
        · intro hn
          refine hE.resolve_right fun ⟨_, h⟩ => ?_
          by_cases h0 : 0 ≤ x.matchRI
          · obtain ⟨re, h1⟩ := h.re h0
            rw [index_eq _ h0, h1] at hn; cases hn
          · exact hri (h.neg (by omega))
        have h0 : 0 ≤ x.matchRI := by
          unfold index? at hre
          split at hre
          · cases hre
          · omega
        rw [index_eq _ h0] at hre
        refine (out_deviceBufMNE1 (E := E) hu1 (hE.imp id fun h => ⟨(h.1.drDm sm hmem).model, h.1.drRe _ (List.mem_of_getElem? hre), (h.1.drDm sm hmem).tmpl⟩)).mono ?_
        rintro _ c' ⟨raw, t, wr, h1, h2, h3⟩
        exact ⟨raw, t, wr, h1, .inl ⟨h0, re, hre, h2⟩, h3⟩
      · rename_i hri
        refine (out_deviceBufMNE (E := E) (hE.imp id fun h => (h.1.drDm sm hmem).model)).mono ?_
        rintro _ c' ⟨raw, wr, h1, h2⟩
        exact ⟨raw, raw, wr, h1, .inr ⟨by omega, rfl⟩, h2⟩
    · rintro _ _ ⟨raw, t, wr, h1, h2, rfl⟩
      refine (out_evalType (E := E) (hE.imp id fun h => ⟨(h.1.drDm sm hmem).typ, h.2.typ⟩)).mono ?_
      rintro typ _ ⟨rfl, h3⟩
      exact ⟨some t, wr, rfl, .single hsi h0 hsm h1 h2 h3⟩
  · rw [if_neg hsi]
    have hsi : x.modelSI = -1 := by omega
    by_cases hms : x.models64 ≠ 0
    · rw [if_pos hms]
      have hr : E ∨ (Entry64.decode x.models64).2.toNat - (Entry64.decode x.models64).1.toNat = 0 ∨
          (Entry64.decode x.models64).1.toNat + ((Entry64.decode x.models64).2.toNat - (Entry64.decode x.models64).1.toNat) ≤ T.drDm.length := by
        refine hE.imp id fun ⟨_, h⟩ => ?_
        have := h.models hsi
        unfold InTable at this
        rw [decode_fst, decode_snd]
        omega
      refine (out_modelLoop (E := E) hu1 (hE.imp id fun h => ⟨h.1, h.2.typ⟩) _ _ hr).mono ?_
      rintro typ c' ⟨mo, wr, h1, h2⟩
      refine ⟨mo, wr, h1, ?_⟩
      rw [decode_fst, decode_snd] at h2
      obtain ⟨rfl, rfl, h5⟩ | ⟨w, raw, t, rfl, h4, h5, h6, h7⟩ := h2
      · exact .noModel hsi hms h5
      · exact .model hsi hms h4 h5 h6 h7
    · rw [if_neg hms]
      refine (out_evalType (E := E) (hE.imp id fun h => ⟨h.2.typ, inBuf_zero _⟩)).mono ?_
      rintro typ _ ⟨rfl, h3⟩
      exact ⟨none, [], rfl, .plain hsi (by simpa using hms) h3⟩

theorem out_evalDeviceBody {c : Ctx} (hu : c.src = u) {idx : Nat} (hidx : idx < 8) {d : DeviceType} (hE : E ∨ WFdev T u) :
    P.Out E (evalDeviceBody T idx d c) (fun o c' => match o with
      | none => NoDevice T u idx ∧ c' = c
      | some typ => ∃ rows x mo wr, T.drIdx[idx]? = some rows ∧ First (DeviceMatch T u) rows x ∧ DeviceRes T u x d mo typ ∧
          c' = ({ c with brandName64 := x.brand64 } : Ctx).withModel wr mo) := by
  unfold evalDeviceBody
  rw [index_nat]
  refine .ofOption_bind ?_ fun ir hir => ?_
  · intro hn
    refine hE.resolve_right fun h => ?_
    obtain ⟨rows, h1, -⟩ := h.drCat idx hidx
    rw [h1] at hn; cases hn
  refine .ofOption_bind ?_ fun _ _ => ?_
  · intro hn
    refine hE.resolve_right fun h => ?_
    obtain ⟨rows, h1, h2⟩ := h.drCat idx hidx
    rw [h1] at hir; cases hir
    exact h2 (boundsHint_none hn)
  have hE' : E ∨ (WFdev T u ∧ ∀ v ∈ ir, DeviceRowWF T v) := hE.imp id fun h => ⟨h, h.dr ir (List.mem_of_getElem? hir)⟩
  refine .bind (out_deviceLoop (E := E) hu ir (hE'.imp id fun h => h.2)) ?_
  rintro o _ ⟨rfl, hf⟩
  cases o with
  | none => exact .ret ⟨⟨ir, hir, hf⟩, rfl⟩
  | some x =>
    refine .bind (out_deviceFill (E := E) hu (hE'.imp id fun h => ⟨h.1, h.2 x hf.mem.1⟩)) ?_
    rintro typ c' ⟨mo, wr, h1, h2⟩
    exact .ret ⟨ir, x, mo, wr, hir, hf, h2, h1⟩

/-! ### Vendors -/

theorem Last.mem {α : Type} {p : α → Prop} {x : α} {l : List α} (h : Last p l x) : x ∈ l ∧ p x := by
  obtain ⟨a, z, rfl, hx, _⟩ := h
  exact ⟨by simp, hx⟩

/-- Brand fields after a vendor match. -/
def Ctx.vendor (c : Ctx) (b : Entry64) : Ctx := ({ c with brandName64 := b } : Ctx).setBit flagVendorFragment

theorem setBit_idem (b : Bitset) (i : Nat) : (b.set i).set i = b.set i := by
  unfold Bitset.set
  rw [UInt64.or_assoc, UInt64.or_self]

theorem vendor_vendor (c : Ctx) (a b : Entry64) : (c.vendor a).vendor b = c.vendor b := by
  unfold Ctx.vendor Ctx.setBit
  simp [setBit_idem]

theorem out_vendorFragLoop {v : VendorTuple} : ∀ (n j : Nat) (c : Ctx), c.src = u → (E ∨ n = 0 ∨ j + n ≤ T.vrRe.length) →
    P.Out E (vendorFragLoop T v n j c) (fun _ c' => ((∃ re ∈ (T.vrRe.drop j).take n, re.isMatch u = true) ∧ c' = c.vendor v.brand64) ∨
      ((∀ re ∈ (T.vrRe.drop j).take n, re.isMatch u = false) ∧ c' = c)) := by
  intro n
  induction n with
  | zero => intro j c _ _; exact .ret (.inr ⟨by simp, rfl⟩)
  | succ n ih =>
    intro j c hu hn
    rw [vendorFragLoop, P.ctx_bind, hu]
    refine .ofOption_bind ?_ fun re hre => ?_
    · intro h
      refine hn.resolve_right fun h' => ?_
      rw [List.getElem?_eq_none_iff] at h
      omega
    have hlt : j < T.vrRe.length := by
      rcases Nat.lt_or_ge j T.vrRe.length with h | h
      · exact h
      · rw [List.getElem?_eq_none h] at hre; cases hre
    have hrows : (T.vrRe.drop j).take (n + 1) = re :: (T.vrRe.drop (j + 1)).take n := by
      rw [List.drop_eq_getElem_cons hlt, List.take_succ_cons]
      rw [List.getElem?_eq_getElem hlt] at hre
      injection hre with hre; rw [hre]
    rw [hrows]
    have hn' : E ∨ n = 0 ∨ j + 1 + n ≤ T.vrRe.length := hn.imp id fun h => by omega
    by_cases hm : re.isMatch u = true
    · refine .bind (mid := fun _ c' => c' = c.vendor v.brand64) ?_ ?_
      · unfold P.when
        rw [if_pos hm]
        exact ⟨fun _ _ => rfl, fun h => by cases h⟩
      · rintro _ _ rfl
        refine (ih (j + 1) (c.vendor v.brand64) hu hn').mono ?_
        rintro _ c' (⟨_, rfl⟩ | ⟨_, rfl⟩)
        · exact .inl ⟨⟨re, by simp, hm⟩, by rw [vendor_vendor]⟩
        · exact .inl ⟨⟨re, by simp, hm⟩, rfl⟩
    · refine .bind (mid := fun _ c' => c' = c) ?_ ?_
      · unfold P.when
        rw [if_neg hm]
        exact .ret rfl
      · rintro _ _ rfl
        refine (ih (j + 1) _ hu hn').mono ?_
        rintro _ c' (⟨⟨re', h1, h2⟩, rfl⟩ | ⟨h1, rfl⟩)
        · exact .inl ⟨⟨re', List.mem_cons_of_mem _ h1, h2⟩, rfl⟩
        · refine .inr ⟨fun r hr => ?_, rfl⟩
          rcases List.mem_cons.mp hr with rfl | hr
          · simpa using hm
          · exact h1 r hr

theorem out_vendorLoop (l : List VendorTuple) : ∀ (c : Ctx), c.src = u → (E ∨ ∀ v ∈ l, VendorRowWF T v) →
    P.Out E (vendorLoop T l c) (fun _ c' => (∃ v, Last (VendorMatch T u) l v ∧ c' = c.vendor v.brand64) ∨
      ((∀ v ∈ l, ¬ VendorMatch T u v) ∧ c' = c)) := by
  induction l with
  | nil => intro c _ _; exact .ret (.inr ⟨by simp, rfl⟩)
  | cons v l ih =>
    intro c hu hE
    rw [vendorLoop]
    have hr : E ∨ (Entry64.decode v.range64).2.toNat - (Entry64.decode v.range64).1.toNat = 0 ∨
        (Entry64.decode v.range64).1.toNat + ((Entry64.decode v.range64).2.toNat - (Entry64.decode v.range64).1.toNat) ≤ T.vrRe.length := by
      refine hE.imp id fun h => ?_
      have := (h v (by simp)).range
      unfold InTable at this
      rw [decode_fst, decode_snd]
      omega
    have hE' : E ∨ ∀ v ∈ l, VendorRowWF T v := hE.imp id fun h => fun w hw => h w (List.mem_cons_of_mem _ hw)
    refine .bind (out_vendorFragLoop (E := E) _ _ c hu hr) ?_
    rintro _ c' h
    rw [decode_fst, decode_snd] at h
    obtain ⟨h1, rfl⟩ | ⟨h1, rfl⟩ := h
    · refine (ih (c.vendor v.brand64) hu hE').mono ?_
      rintro _ c' (⟨w, ⟨a, z, rfl, h2, h3⟩, rfl⟩ | ⟨h2, rfl⟩)
      · exact .inl ⟨w, ⟨v :: a, z, rfl, h2, h3⟩, by rw [vendor_vendor]⟩
      · exact .inl ⟨v, ⟨[], l, rfl, h1, h2⟩, rfl⟩
    · refine (ih _ hu hE').mono ?_
      rintro _ c' (⟨w, ⟨a, z, rfl, h2, h3⟩, rfl⟩ | ⟨h2, rfl⟩)
      · exact .inl ⟨w, ⟨v :: a, z, rfl, h2, h3⟩, rfl⟩
      · refine .inr ⟨fun w hw => ?_, rfl⟩
        rcases List.mem_cons.mp hw with rfl | hw
        · rintro ⟨re, h3, h4⟩
          rw [h1 re h3] at h4; cases h4
        · exact h2 w hw

/-- Brand decided by the vendor fragments. -/
def VendorBrand (T : Tables) (u : Bytes) (b : Option (Entry64 × Bool)) : Prop :=
  (∃ v, Last (VendorMatch T u) T.vrIdx v ∧ b = if v.brand64 = 0 then none else some (v.brand64, true)) ∨
  ((∀ v ∈ T.vrIdx, ¬ VendorMatch T u v) ∧ b = none)

theorem eBrand_vendor (u : Bytes) (b : Entry64) : eBrand (ent (({ src := u } : Ctx).vendor b)) = if b = 0 then none else some (b, true) := by
  have h : (({ src := u } : Ctx).vendor b).check flagVendorFragment = true := by
    unfold Ctx.vendor
    rw [Ctx.check_setBit _ _ _ (by decide)]; simp
  unfold eBrand
  show (if b = 0 then none else some (b, (({ src := u } : Ctx).vendor b).check flagVendorFragment)) = _
  rw [h]

theorem vendorOut_char {b : Option (Entry64 × Bool)} (h : vendorOut T u = some b) : VendorBrand T u b := by
  have := (out_vendorLoop (T := T) (u := u) (E := True) T.vrIdx { src := u } rfl (.inl trivial)).1
  unfold vendorOut evalVendor at h
  revert this h
  rcases vendorLoop T T.vrIdx { src := u } with ⟨c, _ | a⟩
  · intro h; cases h
  · intro h this
    cases h
    obtain ⟨v, h1, h2⟩ | ⟨h1, h2⟩ := this a rfl
    · refine .inl ⟨v, h1, ?_⟩
      show eBrand (ent c) = _
      rw [show c = _ from h2, eBrand_vendor]
    · refine .inr ⟨h1, ?_⟩
      show eBrand (ent c) = _
      rw [show c = _ from h2]
      rfl

theorem vendorOut_total (hw : WFdev T u) : vendorOut T u ≠ none := by
  have := (out_vendorLoop (T := T) (u := u) (E := False) T.vrIdx { src := u } rfl (.inr hw.vr)).2
  unfold vendorOut evalVendor
  revert this
  rcases vendorLoop T T.vrIdx { src := u } with ⟨c, _ | a⟩
  · intro h _; exact h rfl
  · intro _ h; cases h

end Verif

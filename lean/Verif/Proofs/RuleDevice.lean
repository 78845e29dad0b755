import Verif.Proofs.RuleOS
import Verif.Props.Device
/-
From device and vendor rows to device and vendor rules.
-/
namespace Verif.Compiler

/-- The first match in a sorted list is the least one. -/
theorem first_least {α : Type} {key : α → Bytes} {p : α → Prop} {l : List α} {x : α} (h : First p (sortBy key l) x) :
    x ∈ l ∧ p x ∧ ∀ y ∈ l, p y → strGe (key y) (key x) = true := by
  have hs := sortBy_sorted key l
  have hp := sortBy_perm key l
  refine ⟨hp.mem_iff.mp h.mem.1, h.mem.2, fun y hy hpy => ?_⟩
  obtain ⟨a, z, e, hx, ha⟩ := h
  have hy' := hp.mem_iff.mpr hy
  rw [e] at hs hy'
  rw [List.pairwise_append] at hs
  rcases List.mem_append.mp hy' with hy' | hy'
  · exact absurd hpy (ha y hy')
  · rcases List.mem_cons.mp hy' with rfl | hy'
    · exact strGe_refl _
    · exact (List.pairwise_cons.mp hs.2.1).1 y hy'

/-- The last match in a sorted list is the greatest one. -/
theorem last_greatest {α : Type} {key : α → Bytes} {p : α → Prop} {l : List α} {x : α} (h : Last p (sortBy key l) x) :
    x ∈ l ∧ p x ∧ ∀ y ∈ l, p y → strGe (key x) (key y) = true := by
  have hs := sortBy_sorted key l
  have hp := sortBy_perm key l
  obtain ⟨a, z, e, hx, ha⟩ := h
  refine ⟨hp.mem_iff.mp (by rw [e]; simp), hx, fun y hy hpy => ?_⟩
  have hy' := hp.mem_iff.mpr hy
  rw [e] at hs hy'
  rw [List.pairwise_append] at hs
  rcases List.mem_append.mp hy' with hy' | hy'
  · exact hs.2.2 y hy' x (List.mem_cons_self ..)
  · rcases List.mem_cons.mp hy' with rfl | hy'
    · exact strGe_refl _
    · exact absurd hpy (ha y hy')

section
variable {env : Env} {lib : Bytes → Re} {u : Bytes} {r : Rules} {T : Tables} {ds : St}
  (hre : T.drRe = ds.re.map (fun p => lib (anyCase p))) (hbuf : T.drBuf = ds.buf.buf)
include hre hbuf

theorem device_hits {t : DeviceRule} {w : DeviceTuple} (den : DeviceDen env ds t w) : DeviceMatch T u w ↔ t.Hits env lib u := by
  unfold DeviceMatch DeviceRule.Hits
  rw [hre, hbuf]
  exact rowMatch_of den.m

theorem model_hits {t : ModelRule} {w : ModelTuple} (den : ModelDen env ds t w) : ModelMatch T u w ↔ t.Hits env lib u := by
  unfold ModelMatch ModelRule.Hits
  rw [hre, hbuf]
  exact rowMatch_of den.m

theorem device_noRule (dden : All2 (fun f ws => All2 (DeviceDen env ds) (sortBy (·.name) f) ws) r.device T.drIdx) {i : Nat} (h : NoDevice T u i) :
    NoDeviceRule env lib u r i := by
  obtain ⟨rows, h1, h2⟩ := h
  have hlt : i < r.device.length := by rw [dden.1]; exact (List.getElem?_eq_some_iff.mp h1).1
  refine ⟨_, List.getElem?_eq_getElem hlt, fun t ht => ?_⟩
  exact (dden.2 i _ _ (List.getElem?_eq_getElem hlt) h1).none (fun a b _ d => device_hits hre hbuf d) h2 t ((sortBy_perm (fun x : DeviceRule => x.name) _).mem_iff.mpr ht)

theorem device_chosen (dden : All2 (fun f ws => All2 (DeviceDen env ds) (sortBy (·.name) f) ws) r.device T.drIdx) {m d : DeviceType} {w : DeviceTuple}
    (h : DeviceChosen T m u d w) : ∃ t, DeviceRuleChosen env lib u r m d t ∧ DeviceDen env ds t w ∧ t.Hits env lib u := by
  obtain ⟨a, z, b, i, rows, h1, h2, h3, h4, h5⟩ := h
  have hlt : i < r.device.length := by rw [dden.1]; exact (List.getElem?_eq_some_iff.mp h4).1
  obtain ⟨t, ht, den⟩ := (dden.2 i _ _ (List.getElem?_eq_getElem hlt) h4).first (fun a b _ d => device_hits hre hbuf d) h5
  obtain ⟨k1, k2, k3⟩ := first_least ht
  exact ⟨t, ⟨a, z, b, i, _, h1, h2, fun x hx hm => device_noRule hre hbuf dden (h3 x hx hm), List.getElem?_eq_getElem hlt, k1, k2, k3⟩, den, k2⟩

theorem device_none (dden : All2 (fun f ws => All2 (DeviceDen env ds) (sortBy (·.name) f) ws) r.device T.drIdx) {m : DeviceType}
    (h : DeviceNone T m u) : DeviceRuleNone env lib u r m := fun x hx hm => device_noRule hre hbuf dden (h x hx hm)

omit hbuf in
theorem model_text {F : St} {rs lit raw x : Bytes} {ri : Int} {e : Entry64} (hF : F.re = ds.re) (hm : MatchDen env.compiles env.replDevice F rs lit ri e)
    (hh : RuleMatch env env.replDevice (fun p => lib (anyCase p)) rs lit u) (h : ModelText T u ri raw x) : TemplateGives env lib u rs raw x := by
  rcases hm.hit hh with ⟨h1, h2⟩ | ⟨h1, h2, p, h3, h4⟩
  · rcases h with ⟨h0, _⟩ | ⟨_, rfl⟩
    · omega
    · exact .inr ⟨h2, rfl⟩
  · rcases h with ⟨_, re, k1, k2⟩ | ⟨h0, _⟩
    · rw [hre, ← hF, h4] at k1
      cases k1
      exact .inl ⟨p, h3, k2⟩
    · omega

omit hre in
theorem type_called {a b : Entry64} {n n' : Bytes} {d typ : DeviceType} (ha : Text ds.buf.buf a n) (hb : Text ds.buf.buf b n') (h : TypeOf T a b d typ) :
    typ = typeCalled n n' d := by
  obtain ⟨s, hs, rfl⟩ := h
  unfold typeCalled
  rw [hbuf] at hs
  rcases hs with ⟨h1, h2⟩ | ⟨h1, h2⟩
  · rw [if_neg (by rw [text_unique ha h2]; exact h1), text_unique ha h2]
  · rw [if_pos (text_unique ha h1), text_unique hb h2]

theorem device_gives (hdm : T.drDm = ds.dm) {t : DeviceRule} {w : DeviceTuple} (den : DeviceDen env ds t w) (hh : t.Hits env lib u) {d typ : DeviceType}
    {mo : Option Bytes} (h : DeviceRes T u w d mo typ) : t.Gives env lib u d mo typ := by
  cases h with
  | @single sm raw x _ h h0 hm hr ht hy =>
    have hms : t.models = [] := Classical.byContradiction fun k => h (den.models k).1
    have hmn : t.model ≠ [] := fun k => h (den.none hms k).1
    obtain ⟨_, _, y, k1, k2, k3, k4, k5⟩ := den.model hms hmn
    rw [hdm, k1] at hm
    cases hm
    rw [hbuf] at hr
    cases text_unique hr k5
    rw [k4] at hy
    rw [type_called hbuf (text_zero' _) den.typ hy]
    exact .single hms hmn (model_text hre rfl den.m hh ht)
  | @model x raw y _ h h0 hm hr ht hy =>
    have hms : t.models ≠ [] := fun k => by
      by_cases hmn : t.model = []
      · exact h0 (den.none k hmn).2
      · exact h0 (den.model k hmn).1
    obtain ⟨_, ws, hrange, hall⟩ := den.models hms
    rw [hdm, hrange.eq_range64] at hm
    obtain ⟨m, hf, md⟩ := hall.first (fun a b _ d => model_hits hre hbuf d) hm
    rw [hbuf] at hr
    cases text_unique hr md.model
    rw [type_called hbuf md.typ den.typ hy]
    exact .model hf (model_text hre rfl md.m hf.mem.2 ht)
  | noModel h h0 hm =>
    have hms : t.models ≠ [] := fun k => by
      by_cases hmn : t.model = []
      · exact h0 (den.none k hmn).2
      · exact h0 (den.model k hmn).1
    obtain ⟨_, ws, hrange, hall⟩ := den.models hms
    rw [hdm, hrange.eq_range64] at hm
    exact .noModel hms (hall.none (fun a b _ d => model_hits hre hbuf d) hm)
  | plain h h0 hy =>
    have hms : t.models = [] := Classical.byContradiction fun k => by
      obtain ⟨_, ws, hrange, hall⟩ := den.models k
      refine hrange.ne_zero ?_ h0
      intro hw
      have := hall.1
      rw [hw] at this
      exact k (List.length_eq_zero_iff.mp this)
    have hmn : t.model = [] := Classical.byContradiction fun k => by
      have := (den.model hms k).2.1
      omega
    have e : typ = typeCalled [] t.device d := by
      rw [type_called hbuf den.typ (text_zero' _) hy]
      unfold typeCalled
      by_cases hd : t.device = []
      · rw [if_pos hd, if_pos rfl, hd]
      · rw [if_neg hd, if_pos rfl]
    rw [e]
    exact .plain hms hmn

omit hre hbuf

theorem brand_called {buf : Bytes} {e : Entry64} {n s : Bytes} (ht : Text buf e n) (h : BrandAt buf e s) : BrandCalled n s := by
  rcases h with ⟨rfl, rfl⟩ | ⟨_, raw, h1, h2⟩
  · exact .inr ⟨text_zero ht, rfl⟩
  · rw [text_unique ht h1]; exact .inl h2

theorem vendor_hits {vs : St} (hre : T.vrRe = vs.re.map lib) {v : VendorRule} {w : VendorTuple} (den : VendorDen vs v w) :
    VendorMatch T u w ↔ v.Hits lib u := by
  have : range64 T.vrRe w.range64 = v.regex.map (fun p => lib (p ++ ascii "[^a-z0-9]+")) := by
    have h : Range T.vrRe w.range64 ((v.regex.map (· ++ ascii "[^a-z0-9]+")).map lib) := by
      obtain ⟨a, b, h1, h2, h3⟩ := den.res
      refine ⟨a.map lib, b.map lib, by rw [hre, h1]; simp, by simpa using h2, by simpa using h3⟩
    rw [h.eq_range64, List.map_map]
    rfl
  unfold VendorMatch VendorRule.Hits
  rw [this]
  constructor
  · rintro ⟨re, h, hm⟩
    obtain ⟨p, hp, rfl⟩ := List.mem_map.mp h
    exact ⟨p, hp, hm⟩
  · rintro ⟨p, hp, hm⟩
    exact ⟨_, List.mem_map_of_mem hp, hm⟩

/-! ### The answers are determined -/

theorem DeviceRuleChosen.first {m d : DeviceType} {t : DeviceRule} (h : DeviceRuleChosen env lib u r m d t) :
    ∃ b i f, First (fun x : DeviceType × Nat × DeviceType => m &&& x.1 ≠ 0 ∧ ¬ NoDeviceRule env lib u r x.2.1) deviceOrder (b, i, d) ∧
      r.device[i]? = some f ∧ t ∈ f ∧ t.Hits env lib u ∧ ∀ t' ∈ f, t'.Hits env lib u → strGe t'.name t.name = true := by
  obtain ⟨a, z, b, i, f, h1, h2, h3, h4, h5, h6, h7⟩ := h
  refine ⟨b, i, f, ⟨a, z, h1, ⟨h2, ?_⟩, fun y hy ⟨k1, k2⟩ => k2 (h3 y hy k1)⟩, h4, h5, h6, h7⟩
  rintro ⟨f', k1, k2⟩
  rw [h4] at k1; cases k1
  exact k2 t h5 h6

theorem DeviceRuleChosen.unique (hb : BrandsOK r) {m d d' : DeviceType} {t t' : DeviceRule} (h : DeviceRuleChosen env lib u r m d t)
    (h' : DeviceRuleChosen env lib u r m d' t') : d = d' ∧ t = t' := by
  obtain ⟨b, i, f, h1, h2, h3, h4, h5⟩ := h.first
  obtain ⟨b', i', f', h1', h2', h3', h4', h5'⟩ := h'.first
  cases h1.unique h1'
  rw [h2] at h2'; cases h2'
  exact ⟨rfl, nodup_inj (hb.device f (List.mem_of_getElem? h2)).1 h3 h3' (strGe_anti (h5' t h3 h4) (h5 t' h3' h4'))⟩

theorem DeviceRuleChosen.not_none {m d : DeviceType} {t : DeviceRule} (h : DeviceRuleChosen env lib u r m d t) : ¬ DeviceRuleNone env lib u r m := by
  intro hn
  obtain ⟨b, i, f, h1, -⟩ := h.first
  exact h1.mem.2.2 (hn _ h1.mem.1 h1.mem.2.1)

theorem DeviceRuleChosen.mem {m d : DeviceType} {t : DeviceRule} (h : DeviceRuleChosen env lib u r m d t) : ∃ f ∈ r.device, t ∈ f := by
  obtain ⟨b, i, f, -, h2, h3, -⟩ := h.first
  exact ⟨f, List.mem_of_getElem? h2, h3⟩

theorem TemplateGives.unique {rs raw a b : Bytes} (h : TemplateGives env lib u rs raw a) (h' : TemplateGives env lib u rs raw b) : a = b := by
  rcases h with ⟨p, h1, h2⟩ | ⟨h1, rfl⟩ <;> rcases h' with ⟨p', h1', h2'⟩ | ⟨h1', rfl⟩
  · rw [h1.unique h1'] at h2; exact h2.unique h2'
  · exact absurd h1.1 h1'
  · exact absurd h1'.1 h1
  · rfl

theorem DeviceRule.Gives.unique {t : DeviceRule} {d a b : DeviceType} {mo mo' : Option Bytes} (h : t.Gives env lib u d mo a) (h' : t.Gives env lib u d mo' b) :
    mo = mo' ∧ a = b := by
  cases h with
  | single h hm hx =>
    cases h' with
    | single _ _ kx => exact ⟨by rw [hx.unique kx], rfl⟩
    | model kf => rw [h] at kf; exact absurd kf.mem.1 (by simp)
    | noModel k => exact absurd h k
    | plain _ km => exact absurd km hm
  | model hf hx =>
    cases h' with
    | single k => rw [k] at hf; exact absurd hf.mem.1 (by simp)
    | model kf kx => cases hf.unique kf; exact ⟨by rw [hx.unique kx], rfl⟩
    | noModel _ kf => exact (hf.not_none kf).elim
    | plain k => rw [k] at hf; exact absurd hf.mem.1 (by simp)
  | noModel h hf =>
    cases h' with
    | single k => exact absurd k h
    | model kf => exact (kf.not_none hf).elim
    | noModel => exact ⟨rfl, rfl⟩
    | plain k => exact absurd k h
  | plain h hm =>
    cases h' with
    | single _ km => exact absurd hm km
    | model kf => rw [h] at kf; exact absurd kf.mem.1 (by simp)
    | noModel k => exact absurd h k
    | plain => exact ⟨rfl, rfl⟩

theorem ModelSays.unique (hb : BrandsOK r) {m : DeviceType} {a b : Bytes} (h : ModelSays env lib u r m a) (h' : ModelSays env lib u r m b) : a = b := by
  rcases h with ⟨d, t, mo, typ, h, hg, ht⟩ | ⟨h, rfl⟩ <;> rcases h' with ⟨d', t', mo', typ', h', hg', ht'⟩ | ⟨h', rfl⟩
  · obtain ⟨rfl, rfl⟩ := h.unique hb h'
    rw [(hg.unique hg').1] at ht
    exact ht.unique ht'
  · exact absurd h' h.not_none
  · exact absurd h h'.not_none
  · rfl

theorem desktop_not_unknown {a : Bytes} (h : a = [] ∨ a = ascii "UNK") : a ∉ desktopNames := by
  rcases h with rfl | rfl <;> decide

theorem DeviceTypeSays.unique (hb : BrandsOK r) {ft fm : Re} {m a b : DeviceType} (h : DeviceTypeSays env lib u ft fm r m a)
    (h' : DeviceTypeSays env lib u ft fm r m b) : a = b := by
  have same : ∀ {x y}, x ∈ desktopNames → y ∉ desktopNames → OSSays env lib u r x → OSSays env lib u r y → False := by
    intro x y hx hy h1 h2
    rcases h1.unique h2 with rfl | ⟨k, _⟩
    · exact hy hx
    · exact desktop_not_unknown k hx
  rcases h with ⟨d, t, mo, h, hg⟩ | ⟨h, hf⟩ <;> rcases h' with ⟨d', t', mo', h', hg'⟩ | ⟨h', hf'⟩
  · obtain ⟨rfl, rfl⟩ := h.unique hb h'
    exact (hg.unique hg').2
  · exact absurd h' h.not_none
  · exact absurd h h'.not_none
  · rcases hf with ⟨h1, ⟨os, h2, h3⟩, rfl⟩ | ⟨h1, rfl⟩ <;> rcases hf' with ⟨h1', ⟨os', h2', h3'⟩, rfl⟩ | ⟨h1', rfl⟩
    · rfl
    · rcases h1' with h1' | ⟨os', k1, k2⟩
      · exact absurd h1' h1
      · exact (same h2 k1 h3 k2).elim
    · rcases h1 with h1 | ⟨os, k1, k2⟩
      · exact absurd h1 h1'
      · exact (same h2' k1 h3' k2).elim
    · rfl

theorem BrandCalled.unique {n a b : Bytes} (hn : n ≠ []) (h : BrandCalled n a) (h' : BrandCalled n b) : a = b :=
  (h.resolve_right fun k => hn k.1).unique (h'.resolve_right fun k => hn k.1)

theorem VendorRuleChosen.unique (hb : BrandsOK r) {v v' : VendorRule} (h : VendorRuleChosen lib u r v) (h' : VendorRuleChosen lib u r v') : v = v' :=
  nodup_inj hb.vendor.1 h.1 h'.1 (strGe_anti (h.2.2 v' h'.1 h'.2.1) (h'.2.2 v h.1 h.2.1))

theorem BrandSays.unique (hb : BrandsOK r) {ft fm : Re} {m : DeviceType} {a b : Bytes} (h : BrandSays env lib u ft fm r m a)
    (h' : BrandSays env lib u ft fm r m b) : a = b := by
  rcases h with ⟨d, t, h, hg⟩ | ⟨h, hk, rfl⟩ | ⟨h, hf, hm, hv⟩ <;> rcases h' with ⟨d', t', h', hg'⟩ | ⟨h', hk', rfl⟩ | ⟨h', hf', hm', hv'⟩
  · obtain ⟨rfl, rfl⟩ := h.unique hb h'
    obtain ⟨f, k1, k2⟩ := h.mem
    exact hg.unique ((hb.device f k1).2 t k2) hg'
  · exact absurd h' h.not_none
  · exact absurd h' h.not_none
  · exact absurd h h'.not_none
  · rfl
  · rw [hf', hm'] at hk; simp at hk
  · exact absurd h h'.not_none
  · rw [hf, hm] at hk'; simp at hk'
  · rcases hv with ⟨v, h1, h2⟩ | ⟨h1, rfl⟩ <;> rcases hv' with ⟨v', h1', h2'⟩ | ⟨h1', rfl⟩
    · cases h1.unique hb h1'
      exact h2.unique (hb.vendor.2 v h1.1) h2'
    · exact absurd h1.2.1 (h1' v h1.1)
    · exact absurd h1'.2.1 (h1 v' h1'.1)
    · rfl

end
end Verif.Compiler

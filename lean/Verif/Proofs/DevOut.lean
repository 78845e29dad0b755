import Verif.Proofs.Device
import Verif.Proofs.Getters
/-
Device detection from scratch (`devOut`): which rule, type and brand; totality on well-formed tables.
-/
namespace Verif
variable {T : Tables} {u : Bytes} {E : Prop}

/-- Outcome of trying the device categories `cats` in order: default type of the category, rule, model text, type. -/
inductive DTried (T : Tables) (m : DeviceType) (u : Bytes) :
    List (DeviceType × Nat × DeviceType) → Option (DeviceType × DeviceTuple × Option Bytes × DeviceType) → Prop where
  | nil : DTried T m u [] none
  | skip {b i d cats o} (h : m &&& b = 0) (hr : DTried T m u cats o) : DTried T m u ((b, i, d) :: cats) o
  | miss {b i d cats o} (h : m &&& b ≠ 0) (hn : NoDevice T u i) (hr : DTried T m u cats o) : DTried T m u ((b, i, d) :: cats) o
  | hit {b i d cats rows v mo typ} (h : m &&& b ≠ 0) (hr : T.drIdx[i]? = some rows) (hf : First (DeviceMatch T u) rows v)
      (hd : DeviceRes T u v d mo typ) : DTried T m u ((b, i, d) :: cats) (some (d, v, mo, typ))

theorem DTried.chosen {m : DeviceType} {cats o} (h : DTried T m u cats o) :
    match o with
    | none => ∀ x ∈ cats, m &&& x.1 ≠ 0 → NoDevice T u x.2.1
    | some (d, v, mo, typ) => DeviceRes T u v d mo typ ∧ ∃ a z b i rows, cats = a ++ (b, i, d) :: z ∧ m &&& b ≠ 0 ∧
        (∀ x ∈ a, m &&& x.1 ≠ 0 → NoDevice T u x.2.1) ∧ T.drIdx[i]? = some rows ∧ First (DeviceMatch T u) rows v := by
  have ext : ∀ {b i d} {a : List (DeviceType × Nat × DeviceType)}, (m &&& b ≠ 0 → NoDevice T u i) → (∀ x ∈ a, m &&& x.1 ≠ 0 → NoDevice T u x.2.1) →
      ∀ x ∈ (b, i, d) :: a, m &&& x.1 ≠ 0 → NoDevice T u x.2.1 := by
    intro b i d a h1 h2 x hx hm
    rcases List.mem_cons.mp hx with rfl | hx
    · exact h1 hm
    · exact h2 x hx hm
  induction h with
  | nil => simp
  | @skip b i d cats o h hr ih =>
    cases o with
    | none => exact ext (fun h' => absurd h h') ih
    | some x =>
      obtain ⟨d', v, mo, typ⟩ := x
      obtain ⟨h1, a, z, b', i', rows, rfl, h2, h3, h4⟩ := ih
      exact ⟨h1, (b, i, d) :: a, z, b', i', rows, rfl, h2, ext (fun h' => absurd h h') h3, h4⟩
  | @miss b i d cats o h hn hr ih =>
    cases o with
    | none => exact ext (fun _ => hn) ih
    | some x =>
      obtain ⟨d', v, mo, typ⟩ := x
      obtain ⟨h1, a, z, b', i', rows, rfl, h2, h3, h4⟩ := ih
      exact ⟨h1, (b, i, d) :: a, z, b', i', rows, rfl, h2, ext (fun _ => hn) h3, h4⟩
  | @hit b i d cats rows v mo typ h hr hf hd => exact ⟨hd, [], cats, b, i, rows, rfl, h, by simp, hr, hf⟩

theorem withModel_brand (c : Ctx) (w : List BufOp) (mo : Option Bytes) : (c.withModel w mo).brandName64 = c.brandName64 := by cases mo <;> rfl

theorem devSelect_char {m : DeviceType} : ∀ {cats : List (DeviceType × Nat × DeviceType)} {o}, (∀ x ∈ cats, x.2.1 < 8) → devSelect T m u cats = some o →
    (o = none ∧ DTried T m u cats none) ∨ ∃ d v mo typ, o = some (typ, v.brand64) ∧ DTried T m u cats (some (d, v, mo, typ))
  | [], o, _, h => by
    rw [devSelect] at h
    cases h
    exact .inl ⟨rfl, .nil⟩
  | (b, i, d) :: cats, o, hi, h => by
    have hi' : ∀ x ∈ cats, x.2.1 < 8 := fun x hx => hi x (List.mem_cons_of_mem _ hx)
    rw [devSelect] at h
    split at h
    · rename_i hb
      have := (out_evalDeviceBody (T := T) (u := u) (E := True) (c := { src := u, maskDeviceType := m }) rfl (idx := i) (hi (b, i, d) (by simp)) (d := d) (.inl trivial)).1
      revert this h
      rcases evalDeviceBody T i d { src := u, maskDeviceType := m } with ⟨c, _ | _ | t⟩
      · intro h; cases h
      · intro h this
        obtain ⟨h1, h2⟩ := this none rfl
        obtain ⟨h3, h4⟩ | ⟨d', v, mo, typ, h3, h4⟩ := devSelect_char hi' h
        · exact .inl ⟨h3, .miss hb h1 h4⟩
        · exact .inr ⟨d', v, mo, typ, h3, .miss hb h1 h4⟩
      · intro h this
        obtain ⟨rows, x, mo, w, h1, h2, h3, h4⟩ := this (some t) rfl
        cases h
        refine .inr ⟨d, x, mo, t, ?_, .hit hb h1 h2 h3⟩
        rw [show c = _ from h4, withModel_brand]
    · rename_i hb
      have hb : m &&& b = 0 := by simpa using hb
      obtain ⟨h3, h4⟩ | ⟨d', v, mo, typ, h3, h4⟩ := devSelect_char hi' h
      · exact .inl ⟨h3, .skip hb h4⟩
      · exact .inr ⟨d', v, mo, typ, h3, .skip hb h4⟩

theorem devSelect_total {m : DeviceType} (hw : WFdev T u) : ∀ {cats : List (DeviceType × Nat × DeviceType)}, (∀ x ∈ cats, x.2.1 < 8) → devSelect T m u cats ≠ none
  | [], _ => by rw [devSelect]; simp
  | (b, i, d) :: cats, hi => by
    have hi' : ∀ x ∈ cats, x.2.1 < 8 := fun x hx => hi x (List.mem_cons_of_mem _ hx)
    rw [devSelect]
    split
    · have := (out_evalDeviceBody (T := T) (u := u) (E := False) (c := { src := u, maskDeviceType := m }) rfl (idx := i) (hi (b, i, d) (by simp)) (d := d) (.inr hw)).2
      revert this
      rcases evalDeviceBody T i d { src := u, maskDeviceType := m } with ⟨c, _ | _ | t⟩
      · intro h; exact (h rfl).elim
      · intro _; exact devSelect_total hw hi'
      · intro _; simp
    · exact devSelect_total hw hi'

theorem devCats_eq : devCats = deviceOrder := rfl
theorem devCats_lt : ∀ x ∈ devCats, x.2.1 < 8 := by decide +kernel

/-- Reported type and brand when no device rule matches. -/
def Fallback (T : Tables) (m : DeviceType) (u : Bytes) (typ : DeviceType) (b : Option (Entry64 × Bool)) : Prop :=
  ∃ dsk, (if m &&& DeviceTypeNotebook ≠ 0 then desktop T u = some dsk else dsk = false) ∧
    ((T.forceTablet.isMatch u = true ∧ typ = (if dsk then DeviceTypeNotebook else DeviceTypeTablet) ∧ b = none) ∨
     (T.forceTablet.isMatch u = false ∧ T.forceMobile.isMatch u = true ∧ typ = (if dsk then DeviceTypeNotebook else DeviceTypeMobile) ∧ b = none) ∨
     (T.forceTablet.isMatch u = false ∧ T.forceMobile.isMatch u = false ∧ typ = (if dsk then DeviceTypeNotebook else 0) ∧ VendorBrand T u b))

/-- Device detection from scratch: the chosen rule, or the fall-backs. -/
theorem devOut_char {m : DeviceType} {typ : DeviceType} {b : Option (Entry64 × Bool)} (h : devOut T m u = some (typ, b)) :
    (∃ d v mo, DeviceChosen T m u d v ∧ DeviceRes T u v d mo typ ∧ b = if v.brand64 = 0 then none else some (v.brand64, false)) ∨
    (DeviceNone T m u ∧ Fallback T m u typ b) := by
  unfold devOut at h
  rcases hs : devSelect T m u devCats with _ | o
  · rw [hs] at h; cases h
  obtain ⟨rfl, h1⟩ | ⟨d, v, mo, t, rfl, h1⟩ := devSelect_char devCats_lt hs
  · right
    rw [hs] at h
    dsimp only at h
    refine ⟨h1.chosen, ?_⟩
    have key : ∀ dsk, (if m &&& DeviceTypeNotebook ≠ 0 then desktop T u else some false) = some dsk →
        (if m &&& DeviceTypeNotebook ≠ 0 then desktop T u = some dsk else dsk = false) := by
      intro dsk hd
      split
      · rename_i hm; rwa [if_pos hm] at hd
      · rename_i hm; rw [if_neg hm] at hd; injection hd with hd; exact hd.symm
    cases hd : (if m &&& DeviceTypeNotebook ≠ 0 then desktop T u else some false) with
    | none => rw [hd] at h; cases h
    | some dsk =>
      rw [hd] at h
      dsimp only at h
      refine ⟨dsk, key dsk hd, ?_⟩
      split at h
      · rename_i ht
        injection h with h
        injection h with h2 h3
        exact .inl ⟨ht, h2.symm, h3.symm⟩
      · rename_i ht
        have ht : T.forceTablet.isMatch u = false := by simpa using ht
        split at h
        · rename_i hm
          injection h with h
          injection h with h2 h3
          exact .inr (.inl ⟨ht, hm, h2.symm, h3.symm⟩)
        · rename_i hm
          have hm : T.forceMobile.isMatch u = false := by simpa using hm
          cases hv : vendorOut T u with
          | none => rw [hv] at h; cases h
          | some b' =>
            rw [hv] at h
            simp only [Option.map_some] at h
            injection h with h
            injection h with h2 h3
            subst h3
            exact .inr (.inr ⟨ht, hm, h2.symm, vendorOut_char hv⟩)
  · left
    rw [hs] at h
    dsimp only at h
    injection h with h
    injection h with h2 h3
    subst h2
    exact ⟨d, v, mo, h1.chosen.2, h1.chosen.1, h3.symm⟩

theorem osAns_total (hw : WFdev T u) (hl : u.length < 2 ^ 32) : osAns T u ≠ none := by
  unfold osAns
  cases h : osOut T u with
  | none => exact absurd h (osOut_total hw)
  | some g => exact (osTexts_total hw hl h).1

/-- Device detection never panics on well-formed tables. -/
theorem devOut_total (hw : WFdev T u) (hl : u.length < 2 ^ 32) (m : DeviceType) : devOut T m u ≠ none := by
  unfold devOut
  have h1 := devSelect_total (m := m) hw devCats_lt
  rcases hs : devSelect T m u devCats with _ | _ | ⟨t, b⟩
  · exact absurd hs h1
  · dsimp only
    have h2 : (if m &&& DeviceTypeNotebook ≠ 0 then desktop T u else some false) ≠ none := by
      split
      · unfold desktop
        have := osAns_total hw hl
        cases h : osAns T u with
        | none => exact absurd h this
        | some x => simp
      · simp
    cases hd : (if m &&& DeviceTypeNotebook ≠ 0 then desktop T u else some false) with
    | none => exact absurd hd h2
    | some dsk =>
      dsimp only
      split
      · simp
      · split
        · simp
        · have := vendorOut_total hw
          cases h : vendorOut T u with
          | none => exact absurd h this
          | some x => simp
  · simp

theorem brandText_total (hw : WFdev T u) {m : DeviceType} {o : DeviceType × Option (Entry64 × Bool)} (h : devOut T m u = some o) : brandText T o.2 ≠ none := by
  obtain ⟨typ, b⟩ := o
  have key : ∀ (buf : Bytes) (e : Entry64) (v : Bool), InBuf buf e → (if v then T.vrBuf else T.drBuf) = buf → brandText T (some (e, v)) ≠ none := by
    rintro buf e v ⟨t, ht⟩ rfl
    rw [← sliceE_iff] at ht
    unfold brandText
    dsimp only
    rw [ht]; simp
  have hnone : brandText T none ≠ none := by simp [brandText]
  obtain ⟨d, v, mo, h1, h2, rfl⟩ | ⟨-, dsk, -, ⟨-, -, rfl⟩ | ⟨-, -, -, rfl⟩ | ⟨-, -, -, ⟨v, h1, rfl⟩ | ⟨-, rfl⟩⟩⟩ := devOut_char h
  · obtain ⟨a, z, b, i, rows, -, -, -, h3, h4⟩ := h1
    dsimp only
    split
    · exact hnone
    · exact key _ _ _ (hw.dr rows (List.mem_of_getElem? h3) v h4.mem.1).brand rfl
  · exact hnone
  · exact hnone
  · dsimp only
    split
    · exact hnone
    · exact key _ _ _ (hw.vr v h1.mem.1).brand rfl
  · exact hnone

end Verif

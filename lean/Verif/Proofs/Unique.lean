import Verif.Proofs.Shape
/-
The declarative descriptions of detection are functional: at most one rule is chosen, at most one text results.
-/
namespace Verif

variable {T : Tables} {u : Bytes}

theorem First.unique {α : Type} {p : α → Prop} {l : List α} {x y : α} (hx : First p l x) (hy : First p l y) : x = y := by
  obtain ⟨a, z, h1, h2, h3⟩ := hx
  obtain ⟨a', z', h1', h2', h3'⟩ := hy
  rw [h1] at h1'
  rw [List.append_eq_append_iff] at h1'
  obtain ⟨b, rfl, h4⟩ | ⟨b, rfl, h4⟩ := h1'
  · cases b with
    | nil => simp at h4; exact h4.1
    | cons w b =>
      simp at h4
      exact absurd h2 (h3' x (by simp [h4.1]))
  · cases b with
    | nil => simp at h4; exact h4.1.symm
    | cons w b =>
      simp at h4
      exact absurd h2' (h3 y (by simp [h4.1]))

theorem First.not_none {α : Type} {p : α → Prop} {l : List α} {x : α} (hx : First p l x) (h : ∀ y ∈ l, ¬ p y) : False :=
  h x hx.mem.1 hx.mem.2

theorem Last.unique {α : Type} {p : α → Prop} {l : List α} {x y : α} (hx : Last p l x) (hy : Last p l y) : x = y := by
  obtain ⟨a, z, h1, h2, h3⟩ := hx
  obtain ⟨a', z', h1', h2', h3'⟩ := hy
  rw [h1] at h1'
  rw [List.append_eq_append_iff] at h1'
  obtain ⟨b, rfl, h4⟩ | ⟨b, rfl, h4⟩ := h1'
  · cases b with
    | nil => simp at h4; exact h4.1
    | cons w b =>
      simp at h4
      exact absurd h2' (h3 y (by simp [h4]))
  · cases b with
    | nil => simp at h4; exact h4.1.symm
    | cons w b =>
      simp at h4
      exact absurd h2 (h3' x (by simp [h4]))

/-- Two splittings of a list at elements that satisfy `p`, nothing before which does, agree. -/
theorem split_unique {α : Type} {p : α → Prop} {l a a' z z' : List α} {x x' : α} (h1 : l = a ++ x :: z) (h1' : l = a' ++ x' :: z')
    (h2 : p x) (h2' : p x') (h3 : ∀ y ∈ a, ¬ p y) (h3' : ∀ y ∈ a', ¬ p y) : x = x' :=
  First.unique ⟨a, z, h1, h2, h3⟩ ⟨a', z', h1', h2', h3'⟩

theorem ClientChosen.first {m : ClientType} {t : ClientType} {v : ClientTuple} (h : ClientChosen T m u t v) :
    ∃ i rows, First (fun x : ClientType × Nat => m &&& x.1 ≠ 0 ∧ ¬ NoClient T u x.2) clientOrder (t, i) ∧
      T.crIdx[i]? = some rows ∧ First (ClientMatch T u) rows v := by
  obtain ⟨a, z, i, rows, h1, h2, h3, h4, h5⟩ := h
  refine ⟨i, rows, ⟨a, z, h1, ⟨h2, ?_⟩, fun y hy ⟨k1, k2⟩ => k2 (h3 y hy k1)⟩, h4, h5⟩
  rintro ⟨rows', k1, k2⟩
  rw [h4] at k1; cases k1
  exact h5.not_none k2

theorem ClientChosen.unique {m : ClientType} {t t' : ClientType} {v v' : ClientTuple} (h : ClientChosen T m u t v)
    (h' : ClientChosen T m u t' v') : t = t' ∧ v = v' := by
  obtain ⟨i, rows, h1, h2, h3⟩ := h.first
  obtain ⟨i', rows', h1', h2', h3'⟩ := h'.first
  cases h1.unique h1'
  rw [h2] at h2'; cases h2'
  exact ⟨rfl, h3.unique h3'⟩

theorem ClientChosen.not_none {m : ClientType} {t : ClientType} {v : ClientTuple} (h : ClientChosen T m u t v) : ¬ ClientNone T m u := by
  intro hn
  obtain ⟨i, rows, h1, -, -⟩ := h.first
  exact h1.mem.2.2 (hn _ h1.mem.1 h1.mem.2.1)

theorem ClientChosen.type {m : ClientType} {t : ClientType} {v : ClientTuple} (h : ClientChosen T m u t v) : t ∈ clientOrder.map (·.1) ∧ m &&& t ≠ 0 := by
  obtain ⟨i, rows, h1, -, -⟩ := h.first
  exact ⟨List.mem_map.mpr ⟨_, h1.mem.1, rfl⟩, h1.mem.2.1⟩

theorem clientOrder_ne {x : ClientType × Nat} (h : x ∈ clientOrder) : x.1 ≠ 0 ∧ (x.2 = 1 ↔ x.1 = ClientTypeBrowser) := by
  revert x; decide

theorem OSChosen.not_none {x : OSTuple} (h : OSChosen T u x) : ¬ OSNone T u := fun hn => h.mem.2.2 (hn x h.mem.1 h.mem.2.1)

theorem OSChosen.unique {x y : OSTuple} (h : OSChosen T u x) (h' : OSChosen T u y) : x = y := First.unique h h'

/-! ### Devices -/

theorem DeviceChosen.first {m : DeviceType} {d : DeviceType} {v : DeviceTuple} (h : DeviceChosen T m u d v) :
    ∃ b i rows, First (fun x : DeviceType × Nat × DeviceType => m &&& x.1 ≠ 0 ∧ ¬ NoDevice T u x.2.1) deviceOrder (b, i, d) ∧
      T.drIdx[i]? = some rows ∧ First (DeviceMatch T u) rows v := by
  obtain ⟨a, z, b, i, rows, h1, h2, h3, h4, h5⟩ := h
  refine ⟨b, i, rows, ⟨a, z, h1, ⟨h2, ?_⟩, fun y hy ⟨k1, k2⟩ => k2 (h3 y hy k1)⟩, h4, h5⟩
  rintro ⟨rows', k1, k2⟩
  rw [h4] at k1; cases k1
  exact h5.not_none k2

theorem DeviceChosen.unique {m : DeviceType} {d d' : DeviceType} {v v' : DeviceTuple} (h : DeviceChosen T m u d v)
    (h' : DeviceChosen T m u d' v') : d = d' ∧ v = v' := by
  obtain ⟨b, i, rows, h1, h2, h3⟩ := h.first
  obtain ⟨b', i', rows', h1', h2', h3'⟩ := h'.first
  cases h1.unique h1'
  rw [h2] at h2'; cases h2'
  exact ⟨rfl, h3.unique h3'⟩

theorem DeviceChosen.not_none {m : DeviceType} {d : DeviceType} {v : DeviceTuple} (h : DeviceChosen T m u d v) : ¬ DeviceNone T m u := by
  intro hn
  obtain ⟨b, i, rows, h1, -, -⟩ := h.first
  exact h1.mem.2.2 (hn _ h1.mem.1 h1.mem.2.1)

theorem Expands.unique {re : Re} {r t t' : Bytes} (h : Expands re u r t) (h' : Expands re u r t') : t = t' := by
  induction h generalizing t' with
  | nil => cases h'; rfl
  | char hb h ih =>
    cases h' with
    | char _ h' => rw [ih h']
    | stop => exact absurd rfl hb
    | group => exact absurd rfl hb
    | dollar => exact absurd rfl hb
  | stop hg =>
    cases h' with
    | char hb _ => exact absurd rfl hb
    | stop => rfl
    | group _ hg' _ => exact absurd hg' (hg _)
    | dollar hg' _ => exact absurd hg' (hg _)
  | group hd hg h ih =>
    cases h' with
    | char hb _ => exact absurd rfl hb
    | stop hg' => exact absurd hg (hg' _)
    | group _ hg' h' => rw [hg.unique hg', ih h']
    | dollar => exact absurd rfl hd
  | dollar hg h ih =>
    cases h' with
    | char hb _ => exact absurd rfl hb
    | stop hg' => exact absurd hg (hg' _)
    | group hd => exact absurd rfl hd
    | dollar hg' h' => rw [hg.unique hg', ih h']

theorem ModelText.unique {ri : Int} {raw t t' : Bytes} (h : ModelText T u ri raw t) (h' : ModelText T u ri raw t') : t = t' := by
  obtain ⟨h0, re, h1, h2⟩ | ⟨h0, rfl⟩ := h
  · obtain ⟨-, re', h1', h2'⟩ | ⟨h0', -⟩ := h'
    · rw [h1] at h1'; cases h1'; exact h2.unique h2'
    · omega
  · obtain ⟨h0', -⟩ | ⟨-, rfl⟩ := h'
    · omega
    · rfl

theorem TypeOf.unique {a b : Entry64} {d t t' : DeviceType} (h : TypeOf T a b d t) (h' : TypeOf T a b d t') : t = t' := by
  obtain ⟨s, h1, rfl⟩ := h
  obtain ⟨s', h1', rfl⟩ := h'
  have : s = s' := by
    obtain ⟨h2, h3⟩ | ⟨h2, h3⟩ := h1
    · obtain ⟨h2', h3'⟩ | ⟨h2', h3'⟩ := h1'
      · exact h3.unique h3'
      · exact absurd (h3.unique h2') h2
    · obtain ⟨h2', h3'⟩ | ⟨h2', h3'⟩ := h1'
      · exact absurd (h3'.unique h2) h2'
      · exact h3.unique h3'
  rw [this]

theorem DeviceRes.unique {x : DeviceTuple} {d t t' : DeviceType} {mo mo' : Option Bytes} (h : DeviceRes T u x d mo t)
    (h' : DeviceRes T u x d mo' t') : mo = mo' ∧ t = t' := by
  cases h with
  | single h h0 hm hr ht hy =>
    cases h' with
    | single _ _ hm' hr' ht' hy' =>
      rw [hm] at hm'; cases hm'
      cases hr.unique hr'
      exact ⟨by rw [ht.unique ht'], hy.unique hy'⟩
    | _ => contradiction
  | model h h0 hm hr ht hy =>
    cases h' with
    | model _ _ hm' hr' ht' hy' =>
      cases hm.unique hm'
      cases hr.unique hr'
      exact ⟨by rw [ht.unique ht'], hy.unique hy'⟩
    | noModel _ _ hm' => exact absurd hm'  fun k => hm.not_none k
    | _ => contradiction
  | noModel h h0 hm =>
    cases h' with
    | model _ _ hm' => exact (hm'.not_none hm).elim
    | noModel => exact ⟨rfl, rfl⟩
    | _ => contradiction
  | plain h h0 hy =>
    cases h' with
    | plain _ _ hy' => exact ⟨rfl, hy.unique hy'⟩
    | _ => contradiction

theorem MajorOf.unique {raw m m' : Bytes} (h : MajorOf raw m) (h' : MajorOf raw m') : m = m' := by
  obtain ⟨z, rfl, hm⟩ | ⟨h1, rfl⟩ := h
  · obtain ⟨z', e, hm'⟩ | ⟨h1, rfl⟩ := h'
    · rw [List.append_eq_append_iff] at e
      obtain ⟨b, rfl, e⟩ | ⟨b, rfl, e⟩ := e
      · cases b with
        | nil => simp
        | cons x b => simp only [List.cons_append, List.cons.injEq] at e; exact absurd (by simp [e.1]) hm'
      · cases b with
        | nil => simp
        | cons x b => simp only [List.cons_append, List.cons.injEq] at e; exact absurd (by simp [← e.1]) hm
    · exact absurd (by simp) h1
  · obtain ⟨z', rfl, hm'⟩ | ⟨-, rfl⟩ := h'
    · exact absurd (by simp) h1
    · rfl

end Verif

import Verif.Proofs.Normalize
import Verif.Proofs.Rules
/-
The compilation steps: they never fail, only append to the accumulators, and the rows they emit denote the rules in every later state.
-/
namespace Verif.Compiler

/-! ### Interning -/

/-- Every interned string is still in the buffer. -/
structure BOK (b : Buf) : Prop where
  text : ∀ s e, b.idx s = some e → b.buf.length < 2 ^ 32 → Text b.buf e s

theorem text_append {buf : Bytes} {e : Entry64} {t : Bytes} (h : Text buf e t) (z : Bytes) : Text (buf ++ z) e t := by
  obtain ⟨a, y, rfl, h1, h2⟩ := h
  exact ⟨a, y ++ z, by simp, h1, h2⟩

theorem text_unique {buf : Bytes} {e : Entry64} {t t' : Bytes} (h : Text buf e t) (h' : Text buf e t') : t = t' := by
  rw [← sliceE_iff] at h h'
  rw [h] at h'
  exact Option.some.inj h'

theorem text_ne_zero {buf : Bytes} {e : Entry64} {t : Bytes} (h : Text buf e t) (ht : t ≠ []) : e ≠ 0 := by
  rintro rfl
  obtain ⟨a, y, _, h1, h2⟩ := h
  have := List.length_pos_iff.mpr ht
  have h0 : (0 : Entry64).toNat = 0 := rfl
  rw [h0] at h1 h2
  omega

theorem encode_lt {lo hi : Nat} (h : hi < 2 ^ 32) (hl : lo ≤ hi) :
    (Entry64.encode (UInt32.ofNat lo) (UInt32.ofNat hi)).toNat / 2 ^ 32 = lo ∧
    (Entry64.encode (UInt32.ofNat lo) (UInt32.ofNat hi)).toNat % 2 ^ 32 = hi := by
  rw [encode_toNat, UInt32.toNat_ofNat', UInt32.toNat_ofNat']
  omega

theorem Buf.add_spec {b : Buf} (hb : BOK b) (s : Bytes) :
    BOK (b.add s).2 ∧ (∃ z, (b.add s).2.buf = b.buf ++ z) ∧ (b.add s).2.idx s = some (b.add s).1 ∧
    (∀ k e, b.idx k = some e → (b.add s).2.idx k = some e) := by
  unfold Buf.add
  cases hi : b.idx s with
  | some e => exact ⟨hb, ⟨[], by simp⟩, hi, fun _ _ h => h⟩
  | none =>
    dsimp only
    refine ⟨⟨fun k e hk hl => ?_⟩, ⟨s, rfl⟩, by simp, fun k e hk => ?_⟩
    · dsimp only at hk hl ⊢
      split at hk
      · rename_i hks
        subst hks
        cases hk
        rw [List.length_append] at hl
        obtain ⟨h1, h2⟩ := encode_lt (lo := b.buf.length) (hi := (b.buf ++ k).length) (by rw [List.length_append]; exact hl) (by simp)
        exact ⟨b.buf, [], by simp, h1, by rw [h2, List.length_append]⟩
      · rw [List.length_append] at hl
        exact text_append (hb.text k e hk (by omega)) _
    · rw [if_neg]
      · exact hk
      · rintro rfl
        rw [hi] at hk
        cases hk

/-! ### Steps -/

/-- `F` extends `s`: everything was only appended to. -/
structure Ext (s F : St) : Prop where
  buf : ∃ z, F.buf.buf = s.buf.buf ++ z
  re : ∃ z, F.re = s.re ++ z
  ov : ∃ z, F.ov = s.ov ++ z
  dm : ∃ z, F.dm = s.dm ++ z
  ef : ∃ z, F.ef = s.ef ++ z
  engines : ∃ z, F.engines = s.engines ++ z
  idx : ∀ k e, s.buf.idx k = some e → F.buf.idx k = some e

theorem Ext.refl (s : St) : Ext s s :=
  ⟨⟨[], by simp⟩, ⟨[], by simp⟩, ⟨[], by simp⟩, ⟨[], by simp⟩, ⟨[], by simp⟩, ⟨[], by simp⟩, fun _ _ h => h⟩

theorem Ext.trans {s t u : St} (h : Ext s t) (h' : Ext t u) : Ext s u := by
  have key : ∀ {α : Type} {a b c : List α}, (∃ z, b = a ++ z) → (∃ z, c = b ++ z) → ∃ z, c = a ++ z := by
    rintro α a b c ⟨x, rfl⟩ ⟨y, rfl⟩
    exact ⟨x ++ y, by simp⟩
  exact ⟨key h.buf h'.buf, key h.re h'.re, key h.ov h'.ov, key h.dm h'.dm, key h.ef h'.ef, key h.engines h'.engines,
    fun k e hk => h'.idx k e (h.idx k e hk)⟩

theorem Small.of_ext {s F : St} (h : Ext s F) (hF : Small F) : Small s := by
  obtain ⟨⟨z1, h1⟩, ⟨z2, h2⟩, ⟨z3, h3⟩, ⟨z4, h4⟩, ⟨z5, h5⟩, _⟩ := h
  have := hF.buf; have := hF.re; have := hF.ov; have := hF.dm; have := hF.ef
  constructor <;> simp_all only [List.length_append] <;> omega

theorem Ext.text {s F : St} (h : Ext s F) {e : Entry64} {t : Bytes} (ht : Text s.buf.buf e t) : Text F.buf.buf e t := by
  obtain ⟨z, hz⟩ := h.buf
  rw [hz]
  exact text_append ht z

theorem getElem_ext {α : Type} {a b : List α} (h : ∃ z, b = a ++ z) {i : Nat} {x : α} (hx : a[i]? = some x) : b[i]? = some x := by
  obtain ⟨z, rfl⟩ := h
  rw [List.getElem?_append_left (List.getElem?_eq_some_iff.mp hx).1]
  exact hx

/-- The step never fails, keeps the interner correct, only appends, and its result is described by `R` in every later state `F`. -/
structure C.Spec {α : Type} (x : C α) (R : St → α → St → St → Prop) : Prop where
  run : ∀ s, BOK s.buf → ∃ a s', x s = some (a, s') ∧ BOK s'.buf ∧ Ext s s' ∧ ∀ F, Ext s' F → Small F → R s a s' F

namespace C.Spec

theorem mono {α : Type} {x : C α} {R R' : St → α → St → St → Prop} (h : Spec x R) (hi : ∀ s a s' F, R s a s' F → R' s a s' F) : Spec x R' :=
  ⟨fun s hs => by
    obtain ⟨a, s', h1, h2, h3, h4⟩ := h.run s hs
    exact ⟨a, s', h1, h2, h3, fun F hF hs => hi _ _ _ _ (h4 F hF hs)⟩⟩

theorem pure {α : Type} (a : α) : Spec (Pure.pure a : C α) (fun s b s' _ => b = a ∧ s' = s) :=
  ⟨fun s hs => ⟨a, s, rfl, hs, Ext.refl s, fun _ _ _ => ⟨rfl, rfl⟩⟩⟩

theorem bind {α β : Type} {x : C α} {f : α → C β} {R : St → α → St → St → Prop} {R2 : α → St → β → St → St → Prop}
    (h : Spec x R) (h2 : ∀ a, Spec (f a) (R2 a)) :
    Spec (x >>= f) (fun s b s'' F => ∃ a s', R s a s' F ∧ R2 a s' b s'' F) :=
  ⟨fun s hs => by
    obtain ⟨a, s', e1, k1, x1, r1⟩ := h.run s hs
    obtain ⟨b, s'', e2, k2, x2, r2⟩ := (h2 a).run s' k1
    refine ⟨b, s'', ?_, k2, x1.trans x2, fun F hF hs => ⟨a, s', r1 F (x2.trans hF) hs, r2 F hF hs⟩⟩
    show C.bind x f s = _
    unfold C.bind
    rw [e1]
    exact e2⟩

end C.Spec

open C (Spec)

theorem spec_add (b : Bytes) : Spec (C.add b) (fun s e s' F =>
    Text F.buf.buf e b ∧ s'.re = s.re ∧ s'.ov = s.ov ∧ s'.dm = s.dm ∧ s'.ef = s.ef ∧ s'.engines = s.engines) :=
  ⟨fun s hs => by
    obtain ⟨h1, h2, h3, h4⟩ := Buf.add_spec hs b
    refine ⟨_, _, rfl, h1, ⟨h2, ⟨[], by simp⟩, ⟨[], by simp⟩, ⟨[], by simp⟩, ⟨[], by simp⟩, ⟨[], by simp⟩, h4⟩, fun F hF hS => ⟨?_, rfl, rfl, rfl, rfl, rfl⟩⟩
    exact hF.text (h1.text b _ h3 (hS.of_ext hF).buf)⟩

theorem spec_addNE (b : Bytes) : Spec (C.addNE b) (fun s e s' F =>
    OptText F b e ∧ s'.re = s.re ∧ s'.ov = s.ov ∧ s'.dm = s.dm ∧ s'.ef = s.ef ∧ s'.engines = s.engines) := by
  unfold C.addNE
  split
  · rename_i h
    have hb : b ≠ [] := List.length_pos_iff.mp h
    exact (spec_add b).mono fun s e s' F hh => ⟨.inr ⟨hb, text_ne_zero hh.1 hb, hh.1⟩, hh.2⟩
  · rename_i h
    have hb : b = [] := by
      cases b with
      | nil => rfl
      | cons x xs => simp at h
    exact (C.Spec.pure 0).mono fun s e s' F hh => by
      obtain ⟨rfl, rfl⟩ := hh
      exact ⟨.inl ⟨hb, rfl⟩, rfl, rfl, rfl, rfl, rfl⟩

theorem i32 {n : Nat} (h : n < 2 ^ 31) : (Int32.ofNat n).toInt = n := by
  rw [Int32.toInt_ofNat', Int.bmod_def, show ((Int32.size : Nat) : Int) = 4294967296 from rfl]
  omega

theorem spec_pushRe (rs : Bytes) : Spec (C.pushRe rs) (fun s i s' F =>
    i = s.re.length ∧ F.re[s.re.length]? = some rs ∧ s'.re = s.re ++ [rs] ∧ s'.ov = s.ov ∧ s'.dm = s.dm ∧ s'.ef = s.ef ∧ s'.engines = s.engines) :=
  ⟨fun s hs => by
    refine ⟨_, _, rfl, hs, ⟨⟨[], by simp⟩, ⟨[rs], rfl⟩, ⟨[], by simp⟩, ⟨[], by simp⟩, ⟨[], by simp⟩, ⟨[], by simp⟩, fun _ _ h => h⟩,
      fun F hF hS => ⟨i32 ?_, getElem_ext hF.re (by simp), rfl, rfl, rfl, rfl, rfl⟩⟩
    have := (hS.of_ext hF).re
    simp only [List.length_append, List.length_cons, List.length_nil] at this
    omega⟩

theorem spec_pushOv (t : OSVersionTuple) : Spec (C.pushOv t) (fun s _ s' _ => s'.ov = s.ov ++ [t]) :=
  ⟨fun s hs => ⟨_, _, rfl, hs, ⟨⟨[], by simp⟩, ⟨[], by simp⟩, ⟨[t], rfl⟩, ⟨[], by simp⟩, ⟨[], by simp⟩, ⟨[], by simp⟩, fun _ _ h => h⟩, fun _ _ _ => rfl⟩⟩

theorem spec_pushDm (t : ModelTuple) : Spec (C.pushDm t) (fun s _ s' F => s'.dm = s.dm ++ [t] ∧ F.dm[s.dm.length]? = some t) :=
  ⟨fun s hs => ⟨_, _, rfl, hs, ⟨⟨[], by simp⟩, ⟨[], by simp⟩, ⟨[], by simp⟩, ⟨[t], rfl⟩, ⟨[], by simp⟩, ⟨[], by simp⟩, fun _ _ h => h⟩,
    fun _ hF _ => ⟨rfl, getElem_ext hF.dm (by simp)⟩⟩⟩

theorem spec_pushEf (t : EngineFn) : Spec (C.pushEf t) (fun s i _ F => i = s.ef.length ∧ F.ef[s.ef.length]? = some t) :=
  ⟨fun s hs => by
    refine ⟨_, _, rfl, hs, ⟨⟨[], by simp⟩, ⟨[], by simp⟩, ⟨[], by simp⟩, ⟨[], by simp⟩, ⟨[t], rfl⟩, ⟨[], by simp⟩, fun _ _ h => h⟩,
      fun F hF hS => ⟨i32 ?_, getElem_ext hF.ef (by simp)⟩⟩
    have := (hS.of_ext hF).ef
    simp only [List.length_append, List.length_cons, List.length_nil] at this
    omega⟩

theorem spec_pushEngine (e : Bytes) : Spec (C.pushEngine e) (fun _ _ _ F => e ∈ F.engines) :=
  ⟨fun s hs => ⟨_, _, rfl, hs, ⟨⟨[], by simp⟩, ⟨[], by simp⟩, ⟨[], by simp⟩, ⟨[], by simp⟩, ⟨[], by simp⟩, ⟨[e], rfl⟩, fun _ _ h => h⟩, fun F hF _ => by
    obtain ⟨z, hz⟩ := hF.engines
    rw [hz]
    simp⟩⟩

theorem spec_lenOv : Spec C.lenOv (fun s n s' _ => n = UInt32.ofNat s.ov.length ∧ s' = s) :=
  ⟨fun s hs => ⟨_, _, rfl, hs, Ext.refl s, fun _ _ _ => ⟨rfl, rfl⟩⟩⟩

theorem spec_lenDm : Spec C.lenDm (fun s n s' _ => n = UInt32.ofNat s.dm.length ∧ s' = s) :=
  ⟨fun s hs => ⟨_, _, rfl, hs, Ext.refl s, fun _ _ _ => ⟨rfl, rfl⟩⟩⟩

theorem spec_lenRe : Spec C.lenRe (fun s n s' _ => n = UInt32.ofNat s.re.length ∧ s' = s) :=
  ⟨fun s hs => ⟨_, _, rfl, hs, Ext.refl s, fun _ _ _ => ⟨rfl, rfl⟩⟩⟩

theorem spec_lastDm : Spec C.lastDm (fun s i _ _ => s.dm ≠ [] → i = (s.dm.length - 1 : Nat)) :=
  ⟨fun s hs => ⟨_, _, rfl, hs, Ext.refl s, fun F hF hS hne => by
    have h1 := (hS.of_ext hF).dm
    have h2 := List.length_pos_iff.mpr hne
    have : Int32.ofNat s.dm.length - 1 = Int32.ofNat (s.dm.length - 1) := by
      apply Int32.toInt_inj.mp
      rw [Int32.toInt_sub, i32 h1, i32 (by omega)]
      have : (1 : Int32).toInt = 1 := by decide
      rw [this, Int.bmod_def]
      omega
    rw [this, i32 (by omega)]⟩⟩

theorem spec_matchPart (compiles : Bytes → Bool) (repl : Bytes → Option Bytes) (rs lit : Bytes) :
    Spec (matchPart compiles repl rs lit) (fun s r s' F => MatchDen compiles repl F rs lit r.1 r.2 ∧
      s'.ov = s.ov ∧ s'.dm = s.dm ∧ s'.ef = s.ef ∧ s'.engines = s.engines) := by
  unfold matchPart
  by_cases h : isRegex rs = false
  · rw [if_pos h]
    have h : ¬ Special rs := by rw [← isRegex_iff, h]; simp
    refine ((spec_add lit).bind fun e => C.Spec.pure _).mono ?_
    rintro s r s' F ⟨e, s1, ⟨ht, _, h2⟩, rfl, rfl⟩
    exact ⟨.lit h rfl ht, h2⟩
  · rw [if_neg h]
    have h : Special rs := by rw [← isRegex_iff]; simpa using h
    obtain ⟨n, hn, _⟩ := normalizeRegex_ok rs
    have hl : Spec (C.lift (normalizeRegex rs)) (fun s a s' _ => a = n ∧ s' = s) :=
      ⟨fun s hs => ⟨n, s, by simp [C.lift, hn], hs, Ext.refl s, fun _ _ _ => ⟨rfl, rfl⟩⟩⟩
    refine (hl.bind (R2 := fun m s r s' F => m = n → MatchDen compiles repl F rs lit r.1 r.2 ∧
      s'.ov = s.ov ∧ s'.dm = s.dm ∧ s'.ef = s.ef ∧ s'.engines = s.engines) fun m => ?_).mono ?_
    rotate_left
    · rintro s r s' F ⟨m, s1, ⟨rfl, rfl⟩, h⟩
      exact h rfl
    by_cases hm : m = n
    rotate_left
    · exact ⟨fun s hs => by
        cases hc : compiles ((repl m).getD m)
        · simp only [Bool.false_eq_true, if_false]
          exact ⟨_, _, rfl, hs, Ext.refl s, fun _ _ _ h => absurd h hm⟩
        · simp only [if_true]
          obtain ⟨i, s', e1, e2, e3, _⟩ := ((spec_pushRe ((repl m).getD m)).bind fun i => C.Spec.pure (i, (0 : Entry64))).run s hs
          exact ⟨_, _, e1, e2, e3, fun _ _ _ h => absurd h hm⟩⟩
    subst hm
    dsimp only
    cases hc : compiles ((repl m).getD m)
    · refine (C.Spec.pure (((-1 : Int), (0 : Entry64)))).mono ?_
      rintro s r s' F ⟨rfl, rfl⟩ _
      exact ⟨.bad m h hn hc rfl rfl, rfl, rfl, rfl, rfl⟩
    · refine ((spec_pushRe _).bind fun i => C.Spec.pure (i, (0 : Entry64))).mono ?_
      rintro s r s' F ⟨i, s1, ⟨rfl, h1, _, h2⟩, rfl, rfl⟩ _
      exact ⟨.re m h hn hc (by simp) (by simpa using h1) rfl, h2⟩

theorem spec_parseInx (ver : Bytes) : Spec (parseInx ver) (fun s r s' F => IxDen osIx F ver r.1 r.2 ∧ s'.ov = s.ov) := by
  unfold parseInx
  split
  · refine (C.Spec.pure _).mono ?_
    rintro s r s' F ⟨rfl, rfl⟩
    exact ⟨.none rfl rfl rfl, rfl⟩
  · rename_i r
    dsimp only
    refine (C.Spec.pure _).mono ?_
    rintro s x s' F ⟨rfl, rfl⟩
    exact ⟨.group r rfl rfl rfl, rfl⟩
  · rename_i h1 h2
    refine ((spec_add ver).bind fun e => C.Spec.pure _).mono ?_
    rintro s r s' F ⟨e, s1, ⟨ht, _, hov, _⟩, rfl, rfl⟩
    have hne : ver ≠ [] := h1
    refine ⟨.const hne ?_ rfl (text_ne_zero ht hne) ht, hov⟩
    intro hd
    cases ver with
    | nil => cases hd
    | cons x xs =>
      cases hd
      exact h2 xs rfl

theorem spec_clientVersion (ver : Bytes) : Spec (clientVersion ver) (fun _ r _ F => IxDen clientIx F ver r.2 r.1) := by
  unfold clientVersion
  split
  · refine (C.Spec.pure _).mono ?_
    rintro s r s' F ⟨rfl, rfl⟩
    exact .none rfl rfl rfl
  · rename_i r
    refine (C.Spec.pure _).mono ?_
    rintro s x s' F ⟨rfl, rfl⟩
    exact .group r rfl rfl rfl
  · rename_i h1 h2
    refine ((spec_add ver).bind fun e => C.Spec.pure _).mono ?_
    rintro s r s' F ⟨e, s1, ⟨ht, _, hov, _⟩, rfl, rfl⟩
    have hne : ver ≠ [] := h1
    refine .const hne ?_ rfl (text_ne_zero ht hne) ht
    intro hd
    cases ver with
    | nil => cases hd
    | cons x xs =>
      cases hd
      exact h2 xs rfl

/-! ### Loops -/

theorem All2.nil {α β : Type} {R : α → β → Prop} : All2 R [] [] := ⟨rfl, fun _ _ _ h => by simp at h⟩

theorem All2.cons {α β : Type} {R : α → β → Prop} {a : α} {b : β} {l : List α} {m : List β} (h : R a b) (t : All2 R l m) : All2 R (a :: l) (b :: m) := by
  refine ⟨by simp [t.1], fun i x y hx hy => ?_⟩
  cases i with
  | zero => simp at hx hy; subst hx; subst hy; exact h
  | succ i => simp at hx hy; exact t.2 i x y hx hy

/-- A loop whose body denotes one element. -/
theorem spec_forList {α β : Type} {f : α → C β} {R : St → α → β → Prop} (h : ∀ a, Spec (f a) (fun _ b _ F => R F a b)) (l : List α) :
    Spec (C.forList f l) (fun _ bs _ F => All2 (R F) l bs) := by
  induction l with
  | nil =>
    refine (C.Spec.pure _).mono ?_
    rintro s r s' F ⟨rfl, rfl⟩
    exact All2.nil
  | cons a as ih =>
    unfold C.forList
    refine ((h a).bind fun b => ih.bind fun bs => C.Spec.pure _).mono ?_
    rintro s r s' F ⟨b, s1, hb, bs, s2, hbs, rfl, rfl⟩
    exact All2.cons hb hbs

/-- A loop whose body appends one element to an accumulator `p`. -/
theorem spec_forPush {α β γ : Type} {f : α → C β} {p : St → List γ} {R : St → α → γ → Prop}
    (h : ∀ a, Spec (f a) (fun s _ s' F => ∃ w, p s' = p s ++ [w] ∧ R F a w)) (l : List α) :
    Spec (C.forList f l) (fun s _ s' F => ∃ ws, p s' = p s ++ ws ∧ All2 (R F) l ws) := by
  induction l with
  | nil =>
    refine (C.Spec.pure _).mono ?_
    rintro s r s' F ⟨rfl, rfl⟩
    exact ⟨[], by simp, All2.nil⟩
  | cons a as ih =>
    unfold C.forList
    refine ((h a).bind fun b => ih.bind fun bs => C.Spec.pure _).mono ?_
    rintro s r s' F ⟨b, s1, ⟨w, e1, hw⟩, bs, s2, ⟨ws, e2, hws⟩, rfl, rfl⟩
    exact ⟨w :: ws, by rw [e2, e1]; simp, All2.cons hw hws⟩

theorem range_of {α : Type} {l ws z : List α} {F : List α} (hF : F = l ++ ws ++ z) (hs : F.length < 2 ^ 32) :
    Range F (Entry64.encode (UInt32.ofNat l.length) (UInt32.ofNat (l ++ ws).length)) ws := by
  have h : (l ++ ws).length < 2 ^ 32 := by rw [hF] at hs; simp only [List.length_append] at hs ⊢; omega
  obtain ⟨h1, h2⟩ := encode_lt (lo := l.length) h (by simp)
  exact ⟨l, z, hF, h1, by rw [h2, List.length_append]⟩

/-! ### Modules -/

theorem spec_osVersionRow (env : Env) (tv : OSVersionRule) :
    Spec (osVersionRow env tv) (fun s _ s' F => ∃ w, s'.ov = s.ov ++ [w] ∧ OSVersionDen env F tv w) := by
  unfold osVersionRow
  refine ((spec_matchPart _ _ _ _).bind fun m => (spec_parseInx _).bind fun v => spec_pushOv _).mono ?_
  rintro s r s' F ⟨m, s1, ⟨hm, e1, _⟩, v, s2, ⟨hv, e2⟩, e3⟩
  exact ⟨_, by rw [e3, e2, e1], hm, hv⟩

/-- `Spec` with the final state available for the sizes. -/
theorem C.Spec.final {α : Type} {x : C α} {R : St → α → St → St → Prop} (h : Spec x R) :
    Spec x (fun s a s' F => R s a s' F ∧ Ext s' F ∧ Small F) :=
  ⟨fun s hs => by
    obtain ⟨a, s', h1, h2, h3, h4⟩ := h.run s hs
    exact ⟨a, s', h1, h2, h3, fun F hF hS => ⟨h4 F hF hS, hF, hS⟩⟩⟩

theorem spec_osVersions (env : Env) (t : OSRule) : Spec (osVersions env t) (fun _ r _ F =>
    (t.versions ≠ [] → r.1 = -1 ∧ r.2.1 = 0 ∧ ∃ ws, Range F.ov r.2.2 ws ∧ All2 (OSVersionDen env F) t.versions ws) ∧
    (t.versions = [] → r.2.2 = 0 ∧ IxDen osIx F t.version r.1 r.2.1)) := by
  unfold osVersions
  split
  · rename_i h
    have hne : t.versions ≠ [] := List.length_pos_iff.mp h
    refine ((spec_lenOv.bind fun lo => (spec_forPush (p := St.ov) (spec_osVersionRow env) t.versions).bind fun _ =>
      spec_lenOv.bind fun hi => C.Spec.pure _).final).mono ?_
    rintro s r s' F ⟨⟨lo, s1, ⟨rfl, rfl⟩, _, s2, ⟨ws, e, hws⟩, hi, s3, ⟨rfl, rfl⟩, rfl, rfl⟩, hF, hS⟩
    refine ⟨fun _ => ⟨rfl, rfl, ws, ?_, hws⟩, fun h => absurd h hne⟩
    obtain ⟨z, hz⟩ := hF.ov
    rw [e] at hz ⊢
    exact range_of hz hS.ov
  · rename_i h
    have hne : t.versions = [] := by
      cases hv : t.versions with
      | nil => rfl
      | cons x xs => simp [hv] at h
    split
    · refine ((spec_parseInx _).bind fun v => C.Spec.pure _).mono ?_
      rintro s r s' F ⟨v, s1, ⟨hv, _⟩, rfl, rfl⟩
      exact ⟨fun h => absurd hne h, fun _ => ⟨rfl, hv⟩⟩
    · rename_i h'
      have hv : t.version = [] := by
        cases hv : t.version with
        | nil => rfl
        | cons x xs => simp [hv] at h'
      refine (C.Spec.pure _).mono ?_
      rintro s r s' F ⟨rfl, rfl⟩
      exact ⟨fun h => absurd hne h, fun _ => ⟨rfl, .none hv rfl rfl⟩⟩

theorem spec_osRow (env : Env) (t : OSRule) : Spec (osRow env t) (fun _ w _ F => OSDen env F t w) := by
  unfold osRow
  refine ((spec_parseInx _).bind fun n => (spec_matchPart _ _ _ _).bind fun m => (spec_osVersions env t).bind fun v => C.Spec.pure _).mono ?_
  rintro s r s' F ⟨n, s1, ⟨hn, _⟩, m, s2, ⟨hm, _⟩, v, s3, ⟨hv1, hv2⟩, rfl, rfl⟩
  exact ⟨hn, hm, hv1, hv2⟩

theorem strGe_total (a b : Bytes) : (strGe b a || strGe a b) = true := by
  induction a generalizing b with
  | nil => cases b <;> simp [strGe]
  | cons x xs ih =>
    cases b with
    | nil => simp [strGe]
    | cons y ys =>
      have := ih ys
      simp only [strGe, Bool.or_eq_true, Bool.and_eq_true, decide_eq_true_eq] at this ⊢
      have h3 : x.toNat < y.toNat ∨ x.toNat = y.toNat ∨ y.toNat < x.toNat := by omega
      rcases h3 with h | h | h
      · exact .inl (.inl (UInt8.lt_iff_toNat_lt.mpr h))
      · have := UInt8.toNat_inj.mp h
        subst this
        rcases ‹_ ∨ _› with h | h
        · exact .inl (.inr ⟨rfl, h⟩)
        · exact .inr (.inr ⟨rfl, h⟩)
      · exact .inr (.inl (UInt8.lt_iff_toNat_lt.mpr h))

theorem strGe_anti {a b : Bytes} (h1 : strGe a b = true) (h2 : strGe b a = true) : a = b := by
  induction a generalizing b with
  | nil => cases b with | nil => rfl | cons x xs => simp [strGe] at h1
  | cons x xs ih =>
    cases b with
    | nil => simp [strGe] at h2
    | cons y ys =>
      simp only [strGe, Bool.or_eq_true, Bool.and_eq_true, decide_eq_true_eq] at h1 h2
      rcases h1 with h1 | ⟨rfl, h1⟩
      · rcases h2 with h2 | ⟨rfl, h2⟩
        · rw [UInt8.lt_iff_toNat_lt] at h1 h2; omega
        · exact absurd h1 (by rw [UInt8.lt_iff_toNat_lt]; omega)
      · rcases h2 with h2 | ⟨_, h2⟩
        · exact absurd h2 (by rw [UInt8.lt_iff_toNat_lt]; omega)
        · rw [ih h1 h2]

theorem strGe_refl (a : Bytes) : strGe a a = true := by simpa using strGe_total a a

theorem strGe_trans {a b c : Bytes} (h : strGe b a = true) (h' : strGe c b = true) : strGe c a = true := by
  induction a generalizing b c with
  | nil => simp [strGe]
  | cons x xs ih =>
    cases b with
    | nil => simp [strGe] at h
    | cons y ys =>
      cases c with
      | nil => simp [strGe] at h'
      | cons z zs =>
        simp only [strGe, Bool.or_eq_true, Bool.and_eq_true, decide_eq_true_eq] at h h' ⊢
        rcases h with h | ⟨rfl, h⟩
        · rcases h' with h' | ⟨rfl, h'⟩
          · exact .inl (by rw [UInt8.lt_iff_toNat_lt] at *; omega)
          · exact .inl h
        · rcases h' with h' | ⟨rfl, h'⟩
          · exact .inl h'
          · exact .inr ⟨rfl, ih h h'⟩

theorem insertBy_perm {α : Type} (key : α → Bytes) (a : α) (l : List α) : (insertBy key a l).Perm (a :: l) := by
  induction l with
  | nil => exact .refl _
  | cons b l ih =>
    unfold insertBy
    split
    · exact .refl _
    · exact (ih.cons b).trans (.swap a b l)

theorem sortBy_perm {α : Type} (key : α → Bytes) (l : List α) : (sortBy key l).Perm l := by
  induction l with
  | nil => exact .refl _
  | cons a l ih => exact (insertBy_perm key a _).trans (ih.cons a)

theorem insertBy_sorted {α : Type} (key : α → Bytes) (a : α) {l : List α} (h : l.Pairwise (fun a b => strGe (key b) (key a) = true)) :
    (insertBy key a l).Pairwise (fun a b => strGe (key b) (key a) = true) := by
  induction l with
  | nil => simp [insertBy]
  | cons b l ih =>
    obtain ⟨h1, h2⟩ := List.pairwise_cons.mp h
    unfold insertBy
    split
    · rename_i hab
      refine List.pairwise_cons.mpr ⟨fun x hx => ?_, h⟩
      rcases List.mem_cons.mp hx with rfl | hx
      · exact hab
      · exact strGe_trans hab (h1 x hx)
    · rename_i hab
      refine List.pairwise_cons.mpr ⟨fun x hx => ?_, ih h2⟩
      rcases List.mem_cons.mp ((insertBy_perm key a l).mem_iff.mp hx) with rfl | hx
      · have := strGe_total (key x) (key b)
        simp only [Bool.or_eq_true] at this
        rcases this with h | h
        · exact absurd h hab
        · exact h
      · exact h1 x hx

theorem sortBy_sorted {α : Type} (key : α → Bytes) (l : List α) : (sortBy key l).Pairwise (fun a b => strGe (key b) (key a) = true) := by
  induction l with
  | nil => exact .nil
  | cons a l ih => exact insertBy_sorted key a ih

theorem spec_engineFn (en : EngineRule) (d : Entry64) : Spec (engineFn en.versions d) (fun _ f _ F => EngineFnDen F en d f) := by
  unfold engineFn
  have hb : ∀ x : Bytes × Bytes, Spec (do let e ← C.add x.2; return (x.1, e) : C (Bytes × Entry64)) (fun _ (c : Bytes × Entry64) _ F => c.1 = x.1 ∧ Text F.buf.buf c.2 x.2) := by
    intro x
    refine ((spec_add x.2).bind fun e => C.Spec.pure _).mono ?_
    rintro s r s' F ⟨e, s1, ⟨ht, _⟩, rfl, rfl⟩
    exact ⟨rfl, ht⟩
  refine ((spec_forList (R := fun F (v : Bytes × Bytes) (c : Bytes × Entry64) => c.1 = v.1 ∧ Text F.buf.buf c.2 v.2) hb _).bind fun cases => C.Spec.pure _).mono ?_
  rintro s r s' F ⟨cs, s1, h, rfl, rfl⟩
  exact ⟨rfl, _, sortBy_perm _ _, sortBy_sorted _ _, h⟩

theorem spec_clientEngine (o : Option EngineRule) : Spec (clientEngine o) (fun _ r _ F =>
    (o = none → r.1 = 0 ∧ r.2 = -1) ∧
    (∀ en, o = some en → OptText F en.default r.1 ∧ (en.versions = [] → r.2 = -1) ∧
      (en.versions ≠ [] → 0 ≤ r.2 ∧ ∃ f, F.ef[r.2.toNat]? = some f ∧ EngineFnDen F en r.1 f)) ∧
    (∀ en, o = some en → ∀ n, n ≠ [] → (n = en.default ∨ n ∈ en.versions.map (·.2)) → n ∈ F.engines)) := by
  cases o with
  | none =>
    refine (C.Spec.pure _).mono ?_
    rintro s r s' F ⟨rfl, rfl⟩
    exact ⟨fun _ => ⟨rfl, rfl⟩, fun _ h => (by cases h), fun _ h => (by cases h)⟩
  | some en =>
    unfold clientEngine
    have hd : Spec (if en.default.length > 0 then do
        let d ← C.add en.default
        C.pushEngine en.default
        return d
      else return 0 : C Entry64) (fun _ d _ F => OptText F en.default d ∧ (en.default ≠ [] → en.default ∈ F.engines)) := by
      split
      · rename_i h
        have hne : en.default ≠ [] := List.length_pos_iff.mp h
        refine ((spec_add _).bind fun d => (spec_pushEngine _).bind fun _ => C.Spec.pure _).mono ?_
        rintro s r s' F ⟨d, s1, ⟨ht, _⟩, _, s2, he, rfl, rfl⟩
        exact ⟨.inr ⟨hne, text_ne_zero ht hne, ht⟩, fun _ => he⟩
      · rename_i h
        have hne : en.default = [] := by
          cases hv : en.default with
          | nil => rfl
          | cons x xs => simp [hv] at h
        refine (C.Spec.pure _).mono ?_
        rintro s r s' F ⟨rfl, rfl⟩
        exact ⟨.inl ⟨hne, rfl⟩, fun h => absurd hne h⟩
    refine (hd.bind (R2 := fun d _ (r : Entry64 × Int) _ F => r.1 = d ∧ (en.versions = [] → r.2 = -1) ∧
      (en.versions ≠ [] → 0 ≤ r.2 ∧ ∃ f, F.ef[r.2.toNat]? = some f ∧ EngineFnDen F en r.1 f) ∧
      ∀ n ∈ en.versions.map (·.2), n ∈ F.engines) fun d => ?_).mono ?_
    · split
      · rename_i h
        have hne : en.versions ≠ [] := List.length_pos_iff.mp h
        have hl := spec_forList (f := fun (x : Bytes × Bytes) => C.pushEngine x.2) (R := fun F x _ => x.2 ∈ F.engines)
          (fun x => spec_pushEngine x.2) en.versions
        refine ((spec_engineFn en d).bind fun f => (spec_pushEf f).bind fun i => hl.bind fun _ => C.Spec.pure _).mono ?_
        rintro s r s' F ⟨f, s1, hf, i, s2, ⟨rfl, hi⟩, us, s3, hu, rfl, rfl⟩
        refine ⟨rfl, fun h => absurd h hne, fun _ => ⟨by simp, f, by simpa using hi, hf⟩, ?_⟩
        intro n hn
        obtain ⟨x, hx, rfl⟩ := List.mem_map.mp hn
        obtain ⟨i, hi⟩ := List.getElem?_of_mem hx
        have hlt : i < us.length := by rw [← hu.1]; exact (List.getElem?_eq_some_iff.mp hi).1
        exact hu.2 i x us[i] hi (List.getElem?_eq_getElem hlt)
      · rename_i h
        have hne : en.versions = [] := by
          cases hv : en.versions with
          | nil => rfl
          | cons x xs => simp [hv] at h
        refine (C.Spec.pure _).mono ?_
        rintro s r s' F ⟨rfl, rfl⟩
        exact ⟨rfl, fun _ => rfl, fun h => absurd hne h, by simp [hne]⟩
    · rintro s r s' F ⟨d, s1, ⟨h1, h2⟩, rfl, h3, h4, h5⟩
      refine ⟨fun h => (by cases h), fun en' he => ?_, fun en' he n hn hh => ?_⟩
      · cases he
        exact ⟨h1, h3, h4⟩
      · cases he
        rcases hh with rfl | hh
        · exact h2 hn
        · exact h5 n hh

theorem spec_clientRow (env : Env) (t : ClientRule) : Spec (clientRow env t) (fun _ w _ F => ClientDen env F t w) := by
  unfold clientRow
  refine ((spec_matchPart _ _ _ _).bind fun m => (spec_addNE _).bind fun n => (spec_clientVersion _).bind fun v =>
    (spec_clientEngine _).bind fun e => (spec_addNE _).bind fun _ => (spec_addNE _).bind fun _ => C.Spec.pure _).mono ?_
  rintro s r s' F ⟨m, s1, ⟨hm, _⟩, n, s2, ⟨hn, _⟩, v, s3, hv, e, s4, ⟨h1, h2, h3⟩, _, s5, _, _, s6, _, rfl, rfl⟩
  exact ⟨hm, hn, hv, h1, h2, h3⟩

theorem spec_evRows (i : Nat) (ns : List Bytes) : Spec (evRows i ns) (fun s r s' F =>
    (r.length = ns.length ∧ ∀ (j : Nat) n (x : Entry64 × Nat), ns[j]? = some n → r[j]? = some x → x.2 = i + j ∧ Text F.buf.buf x.1 n) ∧
    s'.engines = s.engines ∧ s'.ef = s.ef) := by
  induction ns generalizing i with
  | nil =>
    refine (C.Spec.pure _).mono ?_
    rintro s r s' F ⟨rfl, rfl⟩
    exact ⟨⟨rfl, fun j n x h => by simp at h⟩, rfl, rfl⟩
  | cons n ns ih =>
    unfold evRows
    refine ((spec_add n).bind fun e => (ih (i + 1)).bind fun es => C.Spec.pure _).mono ?_
    rintro s r s' F ⟨e, s1, ⟨ht, _, _, _, e1, e2⟩, es, s2, ⟨⟨h1, h2⟩, e3, e4⟩, rfl, rfl⟩
    refine ⟨⟨by simp [h1], fun j m x hm hx => ?_⟩, by rw [e3, e2], by rw [e4, e1]⟩
    cases j with
    | zero => simp at hm hx; subst hm; subst hx; exact ⟨rfl, ht⟩
    | succ j =>
      simp at hm hx
      obtain ⟨k1, k2⟩ := h2 j m x hm hx
      exact ⟨by omega, k2⟩

theorem spec_vendorRow (v : VendorRule) : Spec (vendorRow v) (fun _ w _ F => VendorDen F v w) := by
  unfold vendorRow
  have hb : ∀ re : Bytes, Spec (C.pushRe (re ++ ascii "[^a-z0-9]+")) (fun s _ s' _ => ∃ w, s'.re = s.re ++ [w] ∧ w = re ++ ascii "[^a-z0-9]+") :=
    fun re => (spec_pushRe _).mono fun s i s' F h => ⟨_, h.2.2.1, rfl⟩
  refine (((spec_add v.name).bind fun b => spec_lenRe.bind fun lo => (spec_forPush (p := St.re)
    (R := fun _ (re w : Bytes) => w = re ++ ascii "[^a-z0-9]+") hb v.regex).bind fun _ => spec_lenRe.bind fun hi => C.Spec.pure _).final).mono ?_
  rintro s r s' F ⟨⟨b, s1, ⟨ht, _⟩, lo, s2, ⟨rfl, rfl⟩, _, s3, ⟨ws, e, hws⟩, hi, s4, ⟨rfl, rfl⟩, rfl, rfl⟩, hF, hS⟩
  refine ⟨ht, ?_⟩
  have hw : ws = v.regex.map (· ++ ascii "[^a-z0-9]+") := by
    apply List.ext_getElem?
    intro i
    rw [List.getElem?_map]
    cases hi : v.regex[i]? with
    | none =>
      rw [List.getElem?_eq_none_iff] at hi
      rw [Option.map_none, List.getElem?_eq_none_iff, ← hws.1]
      exact hi
    | some x =>
      have hlt : i < ws.length := by rw [← hws.1]; exact (List.getElem?_eq_some_iff.mp hi).1
      have h := hws.2 i x ws[i] hi (List.getElem?_eq_getElem hlt)
      rw [List.getElem?_eq_getElem hlt, h]
      rfl
  obtain ⟨z, hz⟩ := hF.re
  rw [e] at hz ⊢
  rw [← hw]
  exact range_of hz (by have := hS.re; omega)

theorem spec_modelRow (env : Env) (m : ModelRule) :
    Spec (modelRow env m) (fun s _ s' F => ∃ w, s'.dm = s.dm ++ [w] ∧ ModelDen env F m w) := by
  unfold modelRow
  refine ((spec_matchPart _ _ _ _).bind fun r => (spec_add _).bind fun ty => (spec_add _).bind fun mo => spec_pushDm _).mono ?_
  rintro s r s' F ⟨m, s1, ⟨hm, _, e1, _⟩, ty, s2, ⟨ht, _, _, e2, _⟩, mo, s3, ⟨hmo, _, _, e3, _⟩, e4, _⟩
  exact ⟨_, by rw [e4, e3, e2, e1], hm, ht, hmo⟩

theorem spec_deviceModels (env : Env) (t : DeviceRule) : Spec (deviceModels env t) (fun _ r _ F =>
    (t.models ≠ [] → r.1 = -1 ∧ ∃ ws, Range F.dm r.2 ws ∧ All2 (ModelDen env F) t.models ws) ∧
    (t.models = [] → t.model ≠ [] → r.2 = 0 ∧ 0 ≤ r.1 ∧
      ∃ x, F.dm[r.1.toNat]? = some x ∧ x.matchRI = -1 ∧ x.match64 = 0 ∧ x.type64 = 0 ∧ Text F.buf.buf x.model64 t.model) ∧
    (t.models = [] → t.model = [] → r.1 = -1 ∧ r.2 = 0)) := by
  unfold deviceModels
  split
  · rename_i h
    have hne : t.models ≠ [] := List.length_pos_iff.mp h
    refine ((spec_lenDm.bind fun lo => (spec_forPush (p := St.dm) (spec_modelRow env) t.models).bind fun _ =>
      spec_lenDm.bind fun hi => C.Spec.pure _).final).mono ?_
    rintro s r s' F ⟨⟨lo, s1, ⟨rfl, rfl⟩, _, s2, ⟨ws, e, hws⟩, hi, s3, ⟨rfl, rfl⟩, rfl, rfl⟩, hF, hS⟩
    refine ⟨fun _ => ⟨rfl, ws, ?_, hws⟩, fun h => absurd h hne, fun h => absurd h hne⟩
    obtain ⟨z, hz⟩ := hF.dm
    rw [e] at hz ⊢
    exact range_of hz (by have := hS.dm; omega)
  · rename_i h
    have hne : t.models = [] := by
      cases hv : t.models with
      | nil => rfl
      | cons x xs => simp [hv] at h
    split
    · rename_i h'
      have hm : t.model ≠ [] := List.length_pos_iff.mp h'
      refine ((spec_add _).bind fun mo => (spec_pushDm _).bind fun _ => spec_lastDm.bind fun i => C.Spec.pure _).mono ?_
      rintro s r s' F ⟨mo, s1, ⟨ht, _⟩, _, s2, ⟨e, hx⟩, i, s3, hi, rfl, rfl⟩
      have hi := hi (by rw [e]; simp)
      rw [e] at hi
      simp only [List.length_append, List.length_cons, List.length_nil, Nat.add_sub_cancel, Nat.zero_add] at hi
      subst hi
      exact ⟨fun h => absurd hne h, fun _ _ => ⟨rfl, by simp, _, by simpa using hx, rfl, rfl, rfl, ht⟩, fun _ h => absurd h hm⟩
    · rename_i h'
      have hv : t.model = [] := by
        cases hv : t.model with
        | nil => rfl
        | cons x xs => simp [hv] at h'
      refine (C.Spec.pure _).mono ?_
      rintro s r s' F ⟨rfl, rfl⟩
      exact ⟨fun h => absurd hne h, fun _ h => absurd hv h, fun _ _ => ⟨rfl, rfl⟩⟩

theorem spec_deviceRow (env : Env) (t : DeviceRule) : Spec (deviceRow env t) (fun _ w _ F => DeviceDen env F t w) := by
  unfold deviceRow
  refine ((spec_add _).bind fun b => (spec_add _).bind fun ty => (spec_matchPart _ _ _ _).bind fun m =>
    (spec_deviceModels env t).bind fun mm => C.Spec.pure _).mono ?_
  rintro s r s' F ⟨b, s1, ⟨hb, _⟩, ty, s2, ⟨hty, _⟩, m, s3, ⟨hm, _⟩, mm, s4, ⟨h1, h2, h3⟩, rfl, rfl⟩
  exact ⟨hb, hty, hm, h1, h2, h3⟩

/-! ### Everything in the accumulators comes from some rule -/

/-- A loop whose body appends elements satisfying `Q` to the accumulator `p`. -/
theorem spec_forGrow {α β γ : Type} {f : α → C β} {p : St → List γ} {Q : St → γ → Prop} {l : List α}
    (h : ∀ a ∈ l, Spec (f a) (fun s _ s' F => ∃ ws, p s' = p s ++ ws ∧ ∀ w ∈ ws, Q F w)) :
    Spec (C.forList f l) (fun s _ s' F => ∃ ws, p s' = p s ++ ws ∧ ∀ w ∈ ws, Q F w) := by
  induction l with
  | nil =>
    refine (C.Spec.pure _).mono ?_
    rintro s r s' F ⟨rfl, rfl⟩
    exact ⟨[], by simp, by simp⟩
  | cons a as ih =>
    unfold C.forList
    refine ((h a (List.mem_cons_self ..)).bind fun b => (ih fun a ha => h a (List.mem_cons_of_mem _ ha)).bind fun bs => C.Spec.pure _).mono ?_
    rintro s r s' F ⟨b, s1, ⟨w, e1, hw⟩, bs, s2, ⟨ws, e2, hws⟩, rfl, rfl⟩
    refine ⟨w ++ ws, by rw [e2, e1]; simp, fun x hx => ?_⟩
    rcases List.mem_append.mp hx with hx | hx
    · exact hw x hx
    · exact hws x hx

theorem all2_right {α β : Type} {R : α → β → Prop} {l : List α} {m : List β} (h : All2 R l m) {b : β} (hb : b ∈ m) : ∃ a ∈ l, R a b := by
  obtain ⟨i, hi⟩ := List.getElem?_of_mem hb
  have hlt : i < l.length := by rw [h.1]; exact (List.getElem?_eq_some_iff.mp hi).1
  exact ⟨l[i], List.getElem_mem hlt, h.2 i _ b (List.getElem?_eq_getElem hlt) hi⟩

theorem all2_left {α β : Type} {R : α → β → Prop} {l : List α} {m : List β} (h : All2 R l m) {a : α} (ha : a ∈ l) : ∃ b ∈ m, R a b := by
  obtain ⟨i, hi⟩ := List.getElem?_of_mem ha
  have hlt : i < m.length := by rw [← h.1]; exact (List.getElem?_eq_some_iff.mp hi).1
  exact ⟨m[i], List.getElem_mem hlt, h.2 i a _ hi (List.getElem?_eq_getElem hlt)⟩

theorem grow_osRow (env : Env) (t : OSRule) : Spec (osRow env t) (fun s _ s' F =>
    ∃ ws, s'.ov = s.ov ++ ws ∧ ∀ w ∈ ws, ∃ tv ∈ t.versions, OSVersionDen env F tv w) := by
  unfold osRow
  have hv : Spec (osVersions env t) (fun s _ s' F => ∃ ws, s'.ov = s.ov ++ ws ∧ ∀ w ∈ ws, ∃ tv ∈ t.versions, OSVersionDen env F tv w) := by
    unfold osVersions
    split
    · refine (spec_lenOv.bind fun lo => (spec_forPush (p := St.ov) (spec_osVersionRow env) t.versions).bind fun _ =>
        spec_lenOv.bind fun hi => C.Spec.pure _).mono ?_
      rintro s r s' F ⟨lo, s1, ⟨rfl, rfl⟩, _, s2, ⟨ws, e, hws⟩, hi, s3, ⟨rfl, rfl⟩, rfl, rfl⟩
      exact ⟨ws, e, fun w hw => all2_right hws hw⟩
    · split
      · refine ((spec_parseInx _).bind fun v => C.Spec.pure _).mono ?_
        rintro s r s' F ⟨v, s1, ⟨_, e⟩, rfl, rfl⟩
        exact ⟨[], by simp [e], by simp⟩
      · refine (C.Spec.pure _).mono ?_
        rintro s r s' F ⟨rfl, rfl⟩
        exact ⟨[], by simp, by simp⟩
  refine ((spec_parseInx _).bind fun n => (spec_matchPart _ _ _ _).bind fun m => hv.bind fun v => C.Spec.pure _).mono ?_
  rintro s r s' F ⟨n, s1, ⟨_, e1⟩, m, s2, ⟨_, e2, _⟩, v, s3, ⟨ws, e3, hws⟩, rfl, rfl⟩
  exact ⟨ws, by rw [e3, e2, e1], hws⟩

theorem grow_deviceRow (env : Env) (t : DeviceRule) : Spec (deviceRow env t) (fun s _ s' F =>
    ∃ ws, s'.dm = s.dm ++ ws ∧ ∀ w ∈ ws, (∃ m ∈ t.models, ModelDen env F m w) ∨
      (t.model ≠ [] ∧ w.matchRI = -1 ∧ w.match64 = 0 ∧ w.type64 = 0 ∧ Text F.buf.buf w.model64 t.model)) := by
  unfold deviceRow
  have hv : Spec (deviceModels env t) (fun s _ s' F => ∃ ws, s'.dm = s.dm ++ ws ∧ ∀ w ∈ ws, (∃ m ∈ t.models, ModelDen env F m w) ∨
      (t.model ≠ [] ∧ w.matchRI = -1 ∧ w.match64 = 0 ∧ w.type64 = 0 ∧ Text F.buf.buf w.model64 t.model)) := by
    unfold deviceModels
    split
    · refine (spec_lenDm.bind fun lo => (spec_forPush (p := St.dm) (spec_modelRow env) t.models).bind fun _ =>
        spec_lenDm.bind fun hi => C.Spec.pure _).mono ?_
      rintro s r s' F ⟨lo, s1, ⟨rfl, rfl⟩, _, s2, ⟨ws, e, hws⟩, hi, s3, ⟨rfl, rfl⟩, rfl, rfl⟩
      exact ⟨ws, e, fun w hw => .inl (all2_right hws hw)⟩
    · split
      · rename_i hm
        have hl : Spec C.lastDm (fun s _ s' _ => s' = s) := ⟨fun s hs => ⟨_, _, rfl, hs, Ext.refl s, fun _ _ _ => rfl⟩⟩
        refine ((spec_add _).bind fun mo => (spec_pushDm _).bind fun _ => hl.bind fun i => C.Spec.pure _).mono ?_
        rintro s r s' F ⟨mo, s1, ⟨ht, _, _, e1, _⟩, _, s2, ⟨e2, _⟩, i, s3, e3, rfl, rfl⟩
        subst e3
        refine ⟨_, by rw [e2, e1], fun w hw => .inr ?_⟩
        rw [List.mem_singleton] at hw
        subst hw
        exact ⟨List.length_pos_iff.mp hm, rfl, rfl, rfl, ht⟩
      · refine (C.Spec.pure _).mono ?_
        rintro s r s' F ⟨rfl, rfl⟩
        exact ⟨[], by simp, by simp⟩
  refine ((spec_add _).bind fun b => (spec_add _).bind fun ty => (spec_matchPart _ _ _ _).bind fun m => hv.bind fun mm => C.Spec.pure _).mono ?_
  rintro s r s' F ⟨b, s1, ⟨_, _, _, e1, _⟩, ty, s2, ⟨_, _, _, e2, _⟩, m, s3, ⟨_, _, e3, _⟩, mm, s4, ⟨ws, e4, hws⟩, rfl, rfl⟩
  exact ⟨ws, by rw [e4, e3, e2, e1], hws⟩

/-- Both descriptions of a step hold of its (unique) outcome. -/
theorem C.Spec.and {α : Type} {x : C α} {R R' : St → α → St → St → Prop} (h : Spec x R) (h' : Spec x R') :
    Spec x (fun s a s' F => R s a s' F ∧ R' s a s' F) :=
  ⟨fun s hs => by
    obtain ⟨a, s', h1, h2, h3, h4⟩ := h.run s hs
    obtain ⟨b, t', k1, k2, k3, k4⟩ := h'.run s hs
    rw [h1] at k1
    cases k1
    exact ⟨a, s', h1, h2, h3, fun F hF hS => ⟨h4 F hF hS, k4 F hF hS⟩⟩⟩

/-- The generated function returns interned names only. -/
def EfOK (F : St) (f : EngineFn) : Prop := InBuf F.buf.buf f.default ∧ ∀ c ∈ f.cases, InBuf F.buf.buf c.2

theorem inBuf_zero (b : Bytes) : InBuf b 0 := ⟨[], [], b, rfl, rfl, rfl⟩

theorem OptText.inBuf {F : St} {t : Bytes} {e : Entry64} (h : OptText F t e) : InBuf F.buf.buf e := by
  rcases h with ⟨_, rfl⟩ | ⟨_, _, h⟩
  · exact inBuf_zero _
  · exact ⟨_, h⟩

theorem keepEf_clientVersion (ver : Bytes) : Spec (clientVersion ver) (fun s _ s' _ => s'.ef = s.ef) := by
  unfold clientVersion
  split
  · exact (C.Spec.pure _).mono fun s r s' F h => by rw [h.2]
  · exact (C.Spec.pure _).mono fun s r s' F h => by rw [h.2]
  · refine ((spec_add ver).bind fun e => C.Spec.pure _).mono ?_
    rintro s r s' F ⟨e, s1, ⟨_, _, _, _, he, _⟩, rfl, rfl⟩
    exact he

theorem keepEf_forList {α β : Type} {f : α → C β} (h : ∀ a, Spec (f a) (fun s _ s' _ => s'.ef = s.ef)) (l : List α) :
    Spec (C.forList f l) (fun s _ s' _ => s'.ef = s.ef) := by
  induction l with
  | nil => exact (C.Spec.pure _).mono fun s r s' F h => by rw [h.2]
  | cons a as ih =>
    unfold C.forList
    refine ((h a).bind fun b => ih.bind fun bs => C.Spec.pure _).mono ?_
    rintro s r s' F ⟨b, s1, e1, bs, s2, e2, rfl, rfl⟩
    rw [e2, e1]

theorem keepEf_pushEngine (e : Bytes) : Spec (C.pushEngine e) (fun s _ s' _ => s'.ef = s.ef) :=
  ⟨fun s hs => ⟨_, _, rfl, hs, ⟨⟨[], by simp⟩, ⟨[], by simp⟩, ⟨[], by simp⟩, ⟨[], by simp⟩, ⟨[], by simp⟩, ⟨[e], rfl⟩, fun _ _ h => h⟩, fun _ _ _ => rfl⟩⟩

theorem grow_pushEf (t : EngineFn) : Spec (C.pushEf t) (fun s _ s' _ => s'.ef = s.ef ++ [t]) :=
  ⟨fun s hs => ⟨_, _, rfl, hs, ⟨⟨[], by simp⟩, ⟨[], by simp⟩, ⟨[], by simp⟩, ⟨[], by simp⟩, ⟨[t], rfl⟩, ⟨[], by simp⟩, fun _ _ h => h⟩, fun _ _ _ => rfl⟩⟩

theorem keepEf_engineFn (en : EngineRule) (d : Entry64) : Spec (engineFn en.versions d) (fun s _ s' _ => s'.ef = s.ef) := by
  unfold engineFn
  refine ((keepEf_forList (fun (x : Bytes × Bytes) => ?_) _).bind fun cases => C.Spec.pure _).mono ?_
  · refine ((spec_add x.2).bind fun e => C.Spec.pure _).mono ?_
    rintro s r s' F ⟨e, s1, ⟨_, _, _, _, he, _⟩, rfl, rfl⟩
    exact he
  · rintro s r s' F ⟨cs, s1, h, rfl, rfl⟩
    exact h

theorem grow_clientEngine (o : Option EngineRule) :
    Spec (clientEngine o) (fun s _ s' F => ∃ ws, s'.ef = s.ef ++ ws ∧ ∀ f ∈ ws, EfOK F f) := by
  cases o with
  | none => exact (C.Spec.pure _).mono fun s r s' F h => ⟨[], by simp [h.2], by simp⟩
  | some en =>
    unfold clientEngine
    have hd : Spec (if en.default.length > 0 then do
        let d ← C.add en.default
        C.pushEngine en.default
        return d
      else return 0 : C Entry64) (fun s d s' F => InBuf F.buf.buf d ∧ s'.ef = s.ef) := by
      split
      · refine ((spec_add _).bind fun d => (keepEf_pushEngine _).bind fun _ => C.Spec.pure _).mono ?_
        rintro s r s' F ⟨d, s1, ⟨ht, _, _, _, e1, _⟩, _, s2, e2, rfl, rfl⟩
        exact ⟨⟨_, ht⟩, by rw [e2, e1]⟩
      · refine (C.Spec.pure _).mono ?_
        rintro s r s' F ⟨rfl, rfl⟩
        exact ⟨inBuf_zero _, rfl⟩
    refine (hd.bind (R2 := fun d s _ s' F => ∃ ws, s'.ef = s.ef ++ ws ∧ ∀ f ∈ ws, InBuf F.buf.buf d → EfOK F f) fun d => ?_).mono ?_
    · split
      · have hl := keepEf_forList (f := fun (x : Bytes × Bytes) => C.pushEngine x.2) (fun x => keepEf_pushEngine x.2) en.versions
        refine (((spec_engineFn en d).and (keepEf_engineFn en d)).bind fun f => (grow_pushEf f).bind fun i => hl.bind fun _ => C.Spec.pure _).mono ?_
        rintro s r s' F ⟨f, s1, ⟨hf, e1⟩, i, s2, e2, us, s3, e3, rfl, rfl⟩
        refine ⟨[f], by rw [e3, e2, e1], fun g hg hd => ?_⟩
        rw [List.mem_singleton] at hg
        subst hg
        obtain ⟨vs, _, _, ha⟩ := hf.cases
        refine ⟨by rw [hf.dflt]; exact hd, fun c hc => ?_⟩
        obtain ⟨v, _, _, ht⟩ := all2_right ha hc
        exact ⟨_, ht⟩
      · refine (C.Spec.pure _).mono ?_
        rintro s r s' F ⟨rfl, rfl⟩
        exact ⟨[], by simp, by simp⟩
    · rintro s r s' F ⟨d, s1, ⟨h1, e1⟩, ws, e2, hws⟩
      exact ⟨ws, by rw [e2, e1], fun f hf => hws f hf h1⟩

theorem grow_clientRow (env : Env) (t : ClientRule) :
    Spec (clientRow env t) (fun s _ s' F => ∃ ws, s'.ef = s.ef ++ ws ∧ ∀ f ∈ ws, EfOK F f) := by
  unfold clientRow
  refine ((spec_matchPart _ _ _ _).bind fun m => (spec_addNE _).bind fun n => (keepEf_clientVersion _).bind fun v =>
    (grow_clientEngine _).bind fun e => (spec_addNE _).bind fun _ => (spec_addNE _).bind fun _ => C.Spec.pure _).mono ?_
  rintro s r s' F ⟨m, s1, ⟨_, _, _, e1, _⟩, n, s2, ⟨_, _, _, _, e2, _⟩, v, s3, e3, e, s4, ⟨ws, e4, hws⟩, _, s5, ⟨_, _, _, _, e5, _⟩, _, s6, ⟨_, _, _, _, e6, _⟩, rfl, rfl⟩
  exact ⟨ws, by rw [e6, e5, e4, e3, e2, e1], hws⟩

/-! ### Hints -/

theorem spec_hintLoop (cur : List (Bytes × Bytes)) (ks : List Bytes) (done : List Bytes) : Spec (hintLoop cur done ks) (fun _ r _ F =>
    (∀ x, x ∈ r.2 ↔ x ∈ done ∨ x ∈ ks) ∧ (r.1.map (·.1)).Nodup ∧
    (∀ k e, (k, e) ∈ r.1 → k ∈ ks ∧ k ∉ done ∧ Text F.buf.buf e ((cur.lookup k).getD [])) ∧
    (∀ k ∈ ks, k ∉ done → ∃ e, (k, e) ∈ r.1)) := by
  induction ks generalizing done with
  | nil =>
    refine (C.Spec.pure _).mono ?_
    rintro s r s' F ⟨rfl, rfl⟩
    exact ⟨by simp, by simp, by simp, by simp⟩
  | cons k ks ih =>
    unfold hintLoop
    split
    · rename_i hk
      refine (ih done).mono ?_
      rintro s r s' F ⟨h1, h2, h3, h4⟩
      refine ⟨fun x => ?_, h2, fun k' e h => ?_, fun k' hk' hn => ?_⟩
      · rw [h1 x, List.mem_cons]
        constructor
        · rintro (h | h)
          · exact .inl h
          · exact .inr (.inr h)
        · rintro (h | rfl | h)
          · exact .inl h
          · exact .inl hk
          · exact .inr h
      · obtain ⟨a, b, c⟩ := h3 k' e h
        exact ⟨List.mem_cons_of_mem _ a, b, c⟩
      · rcases List.mem_cons.mp hk' with rfl | hk'
        · exact absurd hk hn
        · exact h4 k' hk' hn
    · rename_i hk
      refine ((spec_add _).bind fun e => (ih (k :: done)).bind fun r => C.Spec.pure _).mono ?_
      rintro s r s' F ⟨e, s1, ⟨ht, _⟩, r, s2, ⟨h1, h2, h3, h4⟩, rfl, rfl⟩
      refine ⟨fun x => ?_, ?_, fun k' e' h => ?_, fun k' hk' hn => ?_⟩
      · show x ∈ r.2 ↔ _
        rw [h1 x, List.mem_cons, List.mem_cons]
        constructor
        · rintro ((h | h) | h)
          · exact .inr (.inl h)
          · exact .inl h
          · exact .inr (.inr h)
        · rintro (h | h | h)
          · exact .inl (.inr h)
          · exact .inl (.inl h)
          · exact .inr h
      · show (k :: r.1.map (·.1)).Nodup
        rw [List.nodup_cons]
        refine ⟨fun hm => ?_, h2⟩
        obtain ⟨⟨k', e'⟩, hm', rfl⟩ := List.mem_map.mp hm
        exact (h3 k' e' hm').2.1 (List.mem_cons_self ..)
      · rcases List.mem_cons.mp h with h | h
        · cases h
          exact ⟨List.mem_cons_self .., hk, ht⟩
        · obtain ⟨a, b, c⟩ := h3 k' e' h
          exact ⟨List.mem_cons_of_mem _ a, fun hd => b (List.mem_cons_of_mem _ hd), c⟩
      · by_cases hkk : k' = k
        · subst hkk
          exact ⟨e, List.mem_cons_self ..⟩
        · rcases List.mem_cons.mp hk' with h | hk'
          · exact absurd h hkk
          · obtain ⟨e', he'⟩ := h4 k' hk' (by
              intro h
              rcases List.mem_cons.mp h with h | h
              · exact hkk h
              · exact hn h)
            exact ⟨e', List.mem_cons_of_mem _ he'⟩

theorem lookup_mem {f : List (Bytes × Bytes)} {k : Bytes} : (∃ v, f.lookup k = some v) ↔ k ∈ f.map (·.1) := by
  induction f with
  | nil => simp
  | cons x xs ih =>
    obtain ⟨a, b⟩ := x
    rw [List.lookup_cons]
    by_cases h : k = a
    · subst h; simp
    · have h' : (k == a) = false := by simpa using h
      rw [h']
      simp only [List.map_cons, List.mem_cons, h, false_or]
      exact ih

theorem spec_hintFiles (files : List (List (Bytes × Bytes))) (keys done : List Bytes) (hkd : ∀ x, x ∈ keys ↔ x ∈ done) :
    Spec (hintFiles keys done files) (fun _ l _ F =>
      (∀ k e, (k, e) ∈ l → k ∉ done ∧ ∃ v, hintValue files k = some v ∧ Text F.buf.buf e v) ∧
      (∀ k v, k ∉ done → hintValue files k = some v → ∃ e, (k, e) ∈ l) ∧ (l.map (·.1)).Nodup) := by
  induction files generalizing keys done with
  | nil =>
    refine (C.Spec.pure _).mono ?_
    rintro s r s' F ⟨rfl, rfl⟩
    exact ⟨by simp, by simp [hintValue], by simp⟩
  | cons f fs ih =>
    unfold hintFiles
    dsimp only
    have hmem : ∀ x, x ∈ sortBy id (keys ++ f.map (·.1)) ↔ x ∈ done ∨ x ∈ f.map (·.1) := by
      intro x
      rw [(sortBy_perm id _).mem_iff, List.mem_append, hkd]
    refine ((spec_hintLoop f _ done).bind (R2 := fun r _ l _ F => (∀ x, x ∈ r.2 ↔ x ∈ done ∨ x ∈ sortBy id (keys ++ f.map (·.1))) →
      ∃ rs, l = r.1 ++ rs ∧ (∀ k e, (k, e) ∈ rs → k ∉ r.2 ∧ ∃ v, hintValue fs k = some v ∧ Text F.buf.buf e v) ∧
      (∀ k v, k ∉ r.2 → hintValue fs k = some v → ∃ e, (k, e) ∈ rs) ∧ (rs.map (·.1)).Nodup) fun r => ?_).mono ?_
    · by_cases hr : ∀ x, x ∈ r.2 ↔ x ∈ done ∨ x ∈ sortBy id (keys ++ f.map (·.1))
      · refine ((ih (sortBy id (keys ++ f.map (·.1))) r.2 ?_).bind fun rs => C.Spec.pure _).mono ?_
        · intro x
          rw [hr x, hmem]
          constructor
          · exact fun h => .inr h
          · rintro (h | h)
            · exact .inl h
            · exact h
        · rintro s l s' F ⟨rs, s1, ⟨h1, h2, h3⟩, rfl, rfl⟩ _
          exact ⟨rs, rfl, h1, h2, h3⟩
      · -- not reached: the step is total all the same
        have tot : ∀ (fs : List (List (Bytes × Bytes))) (a b : List Bytes), Spec (hintFiles a b fs) (fun _ _ _ _ => True) := by
          intro fs
          induction fs with
          | nil => exact fun a b => (C.Spec.pure _).mono fun _ _ _ _ _ => trivial
          | cons g gs ihg =>
            intro a b
            unfold hintFiles
            exact ((spec_hintLoop g _ b).bind fun r => (ihg _ r.2).bind fun rs => C.Spec.pure _).mono fun _ _ _ _ _ => trivial
        exact ((tot fs _ r.2).bind fun rs => C.Spec.pure _).mono fun _ _ _ _ _ h => absurd h hr
    · rintro s l s' F ⟨r, s1, ⟨h1, h2, h3, h4⟩, h5⟩
      obtain ⟨rs, rfl, k1, k2, k3⟩ := h5 h1
      have hin : ∀ k, k ∈ f.map (·.1) → k ∈ r.2 := fun k hk => (h1 k).mpr (.inr ((hmem k).mpr (.inr hk)))
      refine ⟨fun k e h => ?_, fun k v hn hv => ?_, ?_⟩
      · rcases List.mem_append.mp h with h | h
        · obtain ⟨a, b, c⟩ := h3 k e h
          have hk : k ∈ f.map (·.1) := ((hmem k).mp a).resolve_left b
          obtain ⟨v, hv⟩ := lookup_mem.mpr hk
          rw [hv] at c
          exact ⟨b, v, by simp [hintValue, hv], c⟩
        · obtain ⟨a, v, b, c⟩ := k1 k e h
          refine ⟨fun hd => a ((h1 k).mpr (.inl hd)), v, ?_, c⟩
          have : f.lookup k = none := by
            cases hl : f.lookup k with
            | none => rfl
            | some w => exact absurd (hin k (lookup_mem.mp ⟨w, hl⟩)) a
          simp only [hintValue, List.findSome?_cons, this]
          exact b
      · by_cases hk : k ∈ f.map (·.1)
        · obtain ⟨e, he⟩ := h4 k ((hmem k).mpr (.inr hk)) hn
          exact ⟨e, List.mem_append.mpr (.inl he)⟩
        · have hl : f.lookup k = none := by
            cases hl : f.lookup k with
            | none => rfl
            | some w => exact absurd (lookup_mem.mp ⟨w, hl⟩) hk
          simp only [hintValue, List.findSome?_cons, hl] at hv
          obtain ⟨e, he⟩ := k2 k v (by
            rw [h1, hmem]
            rintro (h | h | h)
            · exact hn h
            · exact hn h
            · exact hk h) hv
          exact ⟨e, List.mem_append.mpr (.inr he)⟩
      · rw [List.map_append, List.nodup_append]
        refine ⟨h2, k3, fun a ha b hb hab => ?_⟩
        subst hab
        obtain ⟨⟨k, e⟩, hm, rfl⟩ := List.mem_map.mp ha
        obtain ⟨⟨k', e'⟩, hm', hk'⟩ := List.mem_map.mp hb
        dsimp only at hk'
        subst hk'
        exact (k1 k' e' hm').1 ((h1 k').mpr (.inr (h3 k' e hm).1))

theorem bok_nil : BOK {} := ⟨fun _ _ h => by cases h⟩

/-- Running a step from the empty accumulators. -/
theorem C.Spec.start {α : Type} {x : C α} {R : St → α → St → St → Prop} (h : Spec x R) :
    ∃ a s, x {} = some (a, s) ∧ BOK s.buf ∧ (Small s → R {} a s s) := by
  obtain ⟨a, s, h1, h2, _, h4⟩ := h.run {} bok_nil
  exact ⟨a, s, h1, h2, fun hS => h4 s (Ext.refl s) hS⟩

end Verif.Compiler

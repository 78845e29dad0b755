import Verif.Proofs.CompilerWF
/-
Where the engine entries of compiled client rules come from: each is the entry of its text in the interner, and the collected engine names
are those of the rules.
-/
namespace Verif.Compiler
open C (Spec)

/-- `e` is what the interner gives for some text. -/
def Interned (F : St) (e : Entry64) : Prop := ∃ n, F.buf.idx n = some e

theorem int_add (b : Bytes) : Spec (C.add b) (fun _ e _ F => F.buf.idx b = some e) :=
  ⟨fun s hs => by
    obtain ⟨h1, h2, h3, h4⟩ := Buf.add_spec hs b
    exact ⟨_, _, rfl, h1, ⟨h2, ⟨[], by simp⟩, ⟨[], by simp⟩, ⟨[], by simp⟩, ⟨[], by simp⟩, ⟨[], by simp⟩, h4⟩, fun F hF hS => hF.idx _ _ h3⟩⟩

/-- 0 or interned. -/
def Int0 (F : St) (e : Entry64) : Prop := e = 0 ∨ Interned F e

theorem int_addNE (b : Bytes) : Spec (C.addNE b) (fun _ e _ F => Int0 F e) := by
  unfold C.addNE
  split
  · exact (int_add b).mono fun s e s' F h => .inr ⟨_, h⟩
  · exact (C.Spec.pure 0).mono fun s e s' F h => .inl h.1

/-- What a generated engine function returns. -/
def EfInt (F : St) (f : EngineFn) : Prop := Int0 F f.default ∧ ∀ c ∈ f.cases, Interned F c.2

theorem int_engineFn (en : EngineRule) (d : Entry64) :
    Spec (engineFn en.versions d) (fun _ f _ F => f.default = d ∧ ∀ c ∈ f.cases, Interned F c.2) := by
  unfold engineFn
  have hb : ∀ x : Bytes × Bytes, Spec (do let e ← C.add x.2; return (x.1, e) : C (Bytes × Entry64)) (fun _ (c : Bytes × Entry64) _ F => Interned F c.2) := by
    intro x
    refine ((int_add x.2).bind fun e => C.Spec.pure _).mono ?_
    rintro s r s' F ⟨e, s1, ht, rfl, rfl⟩
    exact ⟨_, ht⟩
  refine ((spec_forList (R := fun F (_ : Bytes × Bytes) (c : Bytes × Entry64) => Interned F c.2) hb _).bind fun cases => C.Spec.pure _).mono ?_
  rintro s r s' F ⟨cs, s1, h, rfl, rfl⟩
  refine ⟨rfl, fun c hc => ?_⟩
  obtain ⟨_, _, h⟩ := all2_right h hc
  exact h

/-- The engines collected in a step are among those satisfying `Q`. -/
def Collects {α : Type} (x : C α) (Q : Bytes → Prop) : Prop := Spec x (fun s _ s' _ => ∃ ws, s'.engines = s.engines ++ ws ∧ ∀ w ∈ ws, Q w)

theorem Collects.bind {α β : Type} {x : C α} {f : α → C β} {Q : Bytes → Prop} (h : Collects x Q) (h' : ∀ a, Collects (f a) Q) :
    Collects (x >>= f) Q := by
  refine (C.Spec.bind h h').mono ?_
  rintro s r s' F ⟨a, s1, ⟨w, e1, hw⟩, ws, e2, hws⟩
  refine ⟨w ++ ws, by rw [e2, e1]; simp, fun x hx => ?_⟩
  rcases List.mem_append.mp hx with hx | hx
  · exact hw x hx
  · exact hws x hx

theorem Collects.pure {α : Type} {a : α} {Q : Bytes → Prop} : Collects (Pure.pure a) Q :=
  (C.Spec.pure a).mono fun s r s' F h => ⟨[], by simp [h.2], by simp⟩

theorem Collects.keep {α : Type} {x : C α} {R : St → α → St → St → Prop} (h : Spec x R) {Q : Bytes → Prop}
    (hk : ∀ s a s' F, R s a s' F → s'.engines = s.engines) : Collects x Q :=
  h.mono fun s r s' F h => ⟨[], by simp [hk _ _ _ _ h], by simp⟩

theorem Collects.add (b : Bytes) {Q : Bytes → Prop} : Collects (C.add b) Q := Collects.keep (spec_add b) fun _ _ _ _ h => h.2.2.2.2.2

theorem Collects.addNE (b : Bytes) {Q : Bytes → Prop} : Collects (C.addNE b) Q := Collects.keep (spec_addNE b) fun _ _ _ _ h => h.2.2.2.2.2

theorem Collects.matchPart (c : Bytes → Bool) (repl : Bytes → Option Bytes) (rs lit : Bytes) {Q : Bytes → Prop} :
    Collects (matchPart c repl rs lit) Q := Collects.keep (spec_matchPart c repl rs lit) fun _ _ _ _ h => h.2.2.2.2

theorem Collects.clientVersion (ver : Bytes) {Q : Bytes → Prop} : Collects (clientVersion ver) Q := by
  unfold Compiler.clientVersion
  split
  · exact .pure
  · exact .pure
  · exact (Collects.add _).bind fun _ => .pure

theorem Collects.pushEngine {e : Bytes} {Q : Bytes → Prop} (h : Q e) : Collects (C.pushEngine e) Q :=
  ⟨fun s hs => ⟨_, _, rfl, hs, ⟨⟨[], by simp⟩, ⟨[], by simp⟩, ⟨[], by simp⟩, ⟨[], by simp⟩, ⟨[], by simp⟩, ⟨[e], rfl⟩, fun _ _ h => h⟩,
    fun _ _ _ => ⟨[e], rfl, by simpa using h⟩⟩⟩

theorem Collects.pushEf (t : EngineFn) {Q : Bytes → Prop} : Collects (C.pushEf t) Q :=
  ⟨fun s hs => ⟨_, _, rfl, hs, ⟨⟨[], by simp⟩, ⟨[], by simp⟩, ⟨[], by simp⟩, ⟨[], by simp⟩, ⟨[t], rfl⟩, ⟨[], by simp⟩, fun _ _ h => h⟩,
    fun _ _ _ => ⟨[], by simp, by simp⟩⟩⟩

theorem Collects.forList {α β : Type} {f : α → C β} {Q : Bytes → Prop} {l : List α} (h : ∀ a ∈ l, Collects (f a) Q) : Collects (C.forList f l) Q := by
  induction l with
  | nil => exact .pure
  | cons a as ih =>
    unfold C.forList
    exact (h a (List.mem_cons_self ..)).bind fun _ => (ih fun a ha => h a (List.mem_cons_of_mem _ ha)).bind fun _ => .pure

/-- The names an engine rule gives. -/
def EngineRule.Names (en : EngineRule) (n : Bytes) : Prop := n = en.default ∨ n ∈ en.versions.map (·.2)

theorem Collects.engineFn (vs : List (Bytes × Bytes)) (d : Entry64) {Q : Bytes → Prop} : Collects (engineFn vs d) Q := by
  unfold Compiler.engineFn
  exact (Collects.forList fun x _ => (Collects.add _).bind fun _ => .pure).bind fun _ => .pure

theorem Collects.clientEngine (o : Option EngineRule) : Collects (clientEngine o) (fun n => ∃ en, o = some en ∧ en.Names n) := by
  cases o with
  | none => exact .pure
  | some en =>
    unfold Compiler.clientEngine
    refine Collects.bind ?_ fun d => ?_
    · split
      · exact (Collects.add _).bind fun _ => (Collects.pushEngine ⟨en, rfl, .inl rfl⟩).bind fun _ => .pure
      · exact .pure
    · split
      · refine (Collects.engineFn _ _).bind fun _ => (Collects.pushEf _).bind fun _ => (Collects.forList fun x hx => ?_).bind fun _ => .pure
        exact Collects.pushEngine ⟨en, rfl, .inr (List.mem_map_of_mem hx)⟩
      · exact .pure

theorem Collects.clientRow (env : Env) (t : ClientRule) : Collects (clientRow env t) (fun n => ∃ en, t.engine = some en ∧ en.Names n) := by
  unfold Compiler.clientRow
  exact (Collects.matchPart _ _ _ _).bind fun _ => (Collects.addNE _).bind fun _ => (Collects.clientVersion _).bind fun _ =>
    (Collects.clientEngine _).bind fun _ => (Collects.addNE _).bind fun _ => (Collects.addNE _).bind fun _ => .pure

/-! ### Entries -/

theorem int_clientEngine (o : Option EngineRule) :
    Spec (clientEngine o) (fun s r s' F => Int0 F r.1 ∧ ∃ ws, s'.ef = s.ef ++ ws ∧ ∀ f ∈ ws, EfInt F f) := by
  cases o with
  | none => exact (C.Spec.pure _).mono fun s r s' F h => ⟨.inl (by rw [h.1]), [], by simp [h.2], by simp⟩
  | some en =>
    unfold clientEngine
    have hd : Spec (if en.default.length > 0 then do
        let d ← C.add en.default
        C.pushEngine en.default
        return d
      else return 0 : C Entry64) (fun s d s' F => Int0 F d ∧ s'.ef = s.ef) := by
      split
      · refine (((spec_add _).and (int_add _)).bind fun d => (keepEf_pushEngine _).bind fun _ => C.Spec.pure _).mono ?_
        rintro s r s' F ⟨d, s1, ⟨⟨ht, _, _, _, e1, _⟩, hi⟩, _, s2, e2, rfl, rfl⟩
        exact ⟨.inr ⟨_, hi⟩, by rw [e2, e1]⟩
      · refine (C.Spec.pure _).mono ?_
        rintro s r s' F ⟨rfl, rfl⟩
        exact ⟨.inl rfl, rfl⟩
    refine (hd.bind (R2 := fun d s r s' F => r.1 = d ∧ ∃ ws, s'.ef = s.ef ++ ws ∧ ∀ f ∈ ws, Int0 F d → EfInt F f) fun d => ?_).mono ?_
    · split
      · have hl := keepEf_forList (f := fun (x : Bytes × Bytes) => C.pushEngine x.2) (fun x => keepEf_pushEngine x.2) en.versions
        refine (((int_engineFn en d).and (keepEf_engineFn en d)).bind fun f => (grow_pushEf f).bind fun i => hl.bind fun _ => C.Spec.pure _).mono ?_
        rintro s r s' F ⟨f, s1, ⟨hf, e1⟩, i, s2, e2, us, s3, e3, rfl, rfl⟩
        refine ⟨rfl, [f], by rw [e3, e2, e1], fun g hg hd => ?_⟩
        rw [List.mem_singleton] at hg
        subst hg
        exact ⟨by rw [hf.1]; exact hd, hf.2⟩
      · refine (C.Spec.pure _).mono ?_
        rintro s r s' F ⟨rfl, rfl⟩
        exact ⟨rfl, [], by simp, by simp⟩
    · rintro s r s' F ⟨d, s1, ⟨h1, e1⟩, rfl, ws, e2, hws⟩
      exact ⟨h1, ws, by rw [e2, e1], fun f hf => hws f hf h1⟩

theorem int_clientRow (env : Env) (t : ClientRule) :
    Spec (clientRow env t) (fun s w s' F => (Int0 F w.browser64 ∧ Int0 F w.engine64) ∧ ∃ ws, s'.ef = s.ef ++ ws ∧ ∀ f ∈ ws, EfInt F f) := by
  unfold clientRow
  refine ((spec_matchPart _ _ _ _).bind fun m => ((spec_addNE _).and (int_addNE _)).bind fun n => (keepEf_clientVersion _).bind fun v =>
    (int_clientEngine _).bind fun e => (spec_addNE _).bind fun _ => (spec_addNE _).bind fun _ => C.Spec.pure _).mono ?_
  rintro s r s' F ⟨m, s1, ⟨_, _, _, e1, _⟩, n, s2, ⟨⟨_, _, _, _, e2, _⟩, hn⟩, v, s3, e3, e, s4, ⟨he, ws, e4, hws⟩, _, s5, ⟨_, _, _, _, e5, _⟩, _, s6, ⟨_, _, _, _, e6, _⟩, rfl, rfl⟩
  exact ⟨⟨hn, he⟩, ws, by rw [e6, e5, e4, e3, e2, e1], hws⟩

theorem int_evRows (i : Nat) (ns : List Bytes) : Spec (evRows i ns) (fun _ r _ F =>
    ∀ (j : Nat) n (x : Entry64 × Nat), ns[j]? = some n → r[j]? = some x → F.buf.idx n = some x.1) := by
  induction ns generalizing i with
  | nil =>
    refine (C.Spec.pure _).mono ?_
    rintro s r s' F ⟨rfl, rfl⟩ j n x h
    simp at h
  | cons n ns ih =>
    unfold evRows
    refine ((int_add n).bind fun e => (ih (i + 1)).bind fun es => C.Spec.pure _).mono ?_
    rintro s r s' F ⟨e, s1, ht, es, s2, h2, rfl, rfl⟩ j m x hm hx
    cases j with
    | zero => simp at hm hx; subst hm; subst hx; exact ht
    | succ j =>
      simp at hm hx
      exact h2 j m x hm hx

/-- What the client module writes, as far as engine names are concerned. -/
theorem client_int {env : Env} {files : List (List ClientRule)} {o : ClientOut} (h : compileClient env files = some o) (hS : Small o.st) :
    (∀ rows ∈ o.rows, ∀ w ∈ rows, Int0 o.st w.browser64 ∧ Int0 o.st w.engine64) ∧ (∀ f ∈ o.st.ef, EfInt o.st f) ∧
    (∀ (j : Nat) n (x : Entry64 × Nat), (engineNames o.st.engines)[j]? = some n → o.ev[j]? = some x → o.st.buf.idx n = some x.1) ∧
    (∀ n ∈ o.st.engines, ∃ f ∈ files, ∃ t ∈ f, ∃ en, t.engine = some en ∧ en.Names n) ∧ BOK o.st.buf := by
  have h1 := spec_forList (f := C.forList (clientRow env)) (R := fun F _ ws => ∀ w ∈ ws, Int0 F w.browser64 ∧ Int0 F w.engine64)
    (fun f => (spec_forList (f := clientRow env) (R := fun F _ w => Int0 F w.browser64 ∧ Int0 F w.engine64)
      (fun t => (int_clientRow env t).mono fun s a s' F h => h.1) f).mono fun s a s' F h w hw => by
        obtain ⟨_, _, h⟩ := all2_right h hw
        exact h) files
  have h2 := spec_forGrow (f := C.forList (clientRow env)) (l := files) (p := St.ef) (Q := EfInt)
    (fun f _ => spec_forGrow (p := St.ef) (Q := EfInt) fun t _ => (int_clientRow env t).mono fun s a s' F h => h.2)
  have h3 : Collects (C.forList (C.forList (clientRow env)) files) (fun n => ∃ f ∈ files, ∃ t ∈ f, ∃ en, t.engine = some en ∧ en.Names n) :=
    Collects.forList fun f hf => Collects.forList fun t ht => (Collects.clientRow env t).mono fun s a s' F h => by
      obtain ⟨ws, e, hw⟩ := h
      exact ⟨ws, e, fun w hw' => ⟨f, hf, t, ht, hw w hw'⟩⟩
  obtain ⟨rows, s, e1, hb, x1, k1⟩ := ((h1.and h2).and h3).run {} bok_nil
  obtain ⟨ev, s', e2, hb2, x2, k2⟩ := ((int_evRows 0 (engineNames s.engines)).and (spec_evRows 0 (engineNames s.engines))).run s hb
  unfold compileClient at h
  rw [e1] at h
  dsimp only at h
  rw [e2] at h
  cases h
  dsimp only at hS ⊢
  obtain ⟨⟨k3, ws, k4, k5⟩, ws', k6, k7⟩ := k1 s' x2 hS
  obtain ⟨k8, _, heng, hef⟩ := k2 s' (Ext.refl s') hS
  rw [heng, hef, k4]
  refine ⟨fun rows hr w hw => ?_, k5, k8, ?_, hb2⟩
  · obtain ⟨_, _, h⟩ := all2_right k3 hr
    exact h w hw
  · rw [k6]
    exact k7

/-- Interned entries are determined by their texts. -/
theorem Interned.unique {F : St} (hb : BOK F.buf) (hs : F.buf.buf.length < 2 ^ 32) {e : Entry64} {n : Bytes} (h : Interned F e)
    (ht : Text F.buf.buf e n) : F.buf.idx n = some e := by
  obtain ⟨m, hm⟩ := h
  rw [text_unique ht (hb.text m e hm hs)]
  exact hm

end Verif.Compiler

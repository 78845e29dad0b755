import Verif.Proofs.EmitTables
import Verif.Proofs.Intern
import Verif.Props.Compiler
/-
Writable rules give tables that can be written.
-/
namespace Verif.Compiler

/-- The accumulated texts can be written. -/
structure St.Writable (s : St) : Prop where
  re : ∀ p ∈ s.re, RawOK p
  ov : ∀ t ∈ s.ov, t.versionSI ≠ -128
  ef : ∀ f ∈ s.ef, ∀ c ∈ f.cases, QuotedOK c.1
  engines : ∀ e ∈ s.engines, RawOK e

/-- A step keeps the accumulated texts writable; its result satisfies `Q`. -/
def Keeps {α : Type} (x : C α) (Q : α → Prop) : Prop := ∀ s a s', x s = some (a, s') → s.Writable → s'.Writable ∧ Q a

namespace Keeps

theorem mono {α : Type} {x : C α} {Q R : α → Prop} (h : Keeps x Q) (hr : ∀ a, Q a → R a) : Keeps x R :=
  fun s a s' e hs => ⟨(h s a s' e hs).1, hr a (h s a s' e hs).2⟩

theorem pure {α : Type} {a : α} {Q : α → Prop} (h : Q a) : Keeps (Pure.pure a) Q := by
  intro s b s' e hs
  cases e
  exact ⟨hs, h⟩

theorem bind {α β : Type} {x : C α} {f : α → C β} {Q : α → Prop} {R : β → Prop} (h : Keeps x Q) (h' : ∀ a, Q a → Keeps (f a) R) : Keeps (x >>= f) R := by
  intro s b s' e hs
  change C.bind x f s = _ at e
  unfold C.bind at e
  split at e
  · cases e
  · rename_i a s1 e1
    obtain ⟨h1, h2⟩ := h _ _ _ e1 hs
    exact h' a h2 _ _ _ e h1

theorem forList {α β : Type} {f : α → C β} {Q : β → Prop} {l : List α} (h : ∀ a ∈ l, Keeps (f a) Q) : Keeps (C.forList f l) (fun r => ∀ b ∈ r, Q b) := by
  induction l with
  | nil => exact pure (by simp)
  | cons a as ih =>
    unfold C.forList
    refine (h a (List.mem_cons_self ..)).bind fun b hb => (ih fun a ha => h a (List.mem_cons_of_mem _ ha)).bind fun bs hbs => pure ?_
    intro x hx
    rcases List.mem_cons.mp hx with rfl | hx
    · exact hb
    · exact hbs x hx

theorem add (b : Bytes) : Keeps (C.add b) (fun _ => True) := by
  intro s a s' e hs
  cases e
  exact ⟨⟨hs.re, hs.ov, hs.ef, hs.engines⟩, trivial⟩

theorem addNE (b : Bytes) : Keeps (C.addNE b) (fun _ => True) := by
  unfold C.addNE
  split
  · exact add b
  · exact pure trivial

theorem mem_snoc {α : Type} {P : α → Prop} {l : List α} {a : α} (hl : ∀ x ∈ l, P x) (ha : P a) : ∀ x ∈ l ++ [a], P x := by
  intro x hx
  rcases List.mem_append.mp hx with h | h
  · exact hl x h
  · rw [List.mem_singleton.mp h]; exact ha

theorem pushRe {p : Bytes} (h : RawOK p) : Keeps (C.pushRe p) (fun _ => True) := by
  intro s a s' e hs
  cases e
  exact ⟨⟨mem_snoc hs.re h, hs.ov, hs.ef, hs.engines⟩, trivial⟩

theorem pushOv {t : OSVersionTuple} (h : t.versionSI ≠ -128) : Keeps (C.pushOv t) (fun _ => True) := by
  intro s a s' e hs
  cases e
  exact ⟨⟨hs.re, mem_snoc hs.ov h, hs.ef, hs.engines⟩, trivial⟩

theorem pushDm (t : ModelTuple) : Keeps (C.pushDm t) (fun _ => True) := by
  intro s a s' e hs
  cases e
  exact ⟨⟨hs.re, hs.ov, hs.ef, hs.engines⟩, trivial⟩

theorem pushEf {f : EngineFn} (h : ∀ c ∈ f.cases, QuotedOK c.1) : Keeps (C.pushEf f) (fun _ => True) := by
  intro s a s' e hs
  cases e
  exact ⟨⟨hs.re, hs.ov, mem_snoc hs.ef h, hs.engines⟩, trivial⟩

theorem pushEngine {n : Bytes} (h : RawOK n) : Keeps (C.pushEngine n) (fun _ => True) := by
  intro s a s' e hs
  cases e
  exact ⟨⟨hs.re, hs.ov, hs.ef, mem_snoc hs.engines h⟩, trivial⟩

theorem same {α : Type} {x : C α} (h : ∀ s a s', x s = some (a, s') → s' = s) : Keeps x (fun _ => True) := by
  intro s a s' e hs
  rw [h s a s' e]
  exact ⟨hs, trivial⟩

theorem lenOv : Keeps C.lenOv (fun _ => True) := same fun s a s' e => by cases e; rfl
theorem lenDm : Keeps C.lenDm (fun _ => True) := same fun s a s' e => by cases e; rfl
theorem lenRe : Keeps C.lenRe (fun _ => True) := same fun s a s' e => by cases e; rfl
theorem lastDm : Keeps C.lastDm (fun _ => True) := same fun s a s' e => by cases e; rfl

theorem lift {α : Type} {o : Option α} {Q : α → Prop} (h : ∀ a, o = some a → Q a) : Keeps (C.lift o) Q := by
  intro s a s' e hs
  cases o with
  | none => cases e
  | some b => cases e; exact ⟨hs, h a rfl⟩

theorem matchPart {compiles : Bytes → Bool} {repl : Bytes → Option Bytes} {rs lit : Bytes} (h : RawOK rs) (hr : ∀ n p, repl n = some p → RawOK p) :
    Keeps (matchPart compiles repl rs lit) (fun _ => True) := by
  unfold Compiler.matchPart
  split
  · exact (add _).bind fun _ _ => pure trivial
  · refine (lift (Q := RawOK) fun n e => ?_).bind fun n hn => ?_
    · obtain ⟨m, e', hm, _⟩ := normalizeRegex_ok rs
      rw [e] at e'
      cases e'
      exact fun c hc => h c (hm.subset hc)
    · dsimp only
      split
      · refine (pushRe ?_).bind fun _ _ => pure trivial
        cases e : repl n with
        | none => exact hn
        | some p => exact hr n p e
      · exact pure trivial

theorem parseInx {v : Bytes} (h : ∀ x, v = 36 :: x → osIx x ≠ -128) : Keeps (parseInx v) (fun r => r.1 ≠ -128) := by
  unfold Compiler.parseInx
  split
  · exact pure (by decide)
  · rename_i r
    exact pure (h r rfl)
  · exact (add _).bind fun _ _ => pure (show (-1 : Int8) ≠ -128 by decide)

theorem osVersionRow {env : Env} {v : OSVersionRule} (h1 : RawOK v.regex) (h2 : ∀ x, v.version = 36 :: x → osIx x ≠ -128) :
    Keeps (osVersionRow env v) (fun _ => True) := by
  unfold Compiler.osVersionRow
  exact (matchPart h1 (by simp)).bind fun _ _ => (parseInx h2).bind fun r hr => pushOv hr

theorem osRow {env : Env} (he : env.Writable) {t : OSRule} (h : RawOK t.regex ∧ (∀ x, t.name = 36 :: x → osIx x ≠ -128) ∧
    (∀ x, t.version = 36 :: x → osIx x ≠ -128) ∧ ∀ v ∈ t.versions, RawOK v.regex ∧ ∀ x, v.version = 36 :: x → osIx x ≠ -128) :
    Keeps (osRow env t) (fun w => w.nameSI ≠ -128 ∧ w.versionSI ≠ -128) := by
  have hv : Keeps (osVersions env t) (fun r => r.1 ≠ -128) := by
    unfold osVersions
    split
    · exact lenOv.bind fun _ _ => (forList fun v hv => osVersionRow (h.2.2.2 v hv).1 (h.2.2.2 v hv).2).bind fun _ _ => lenOv.bind fun _ _ =>
        pure (show (-1 : Int8) ≠ -128 by decide)
    · split
      · exact (parseInx h.2.2.1).bind fun r hr => pure hr
      · exact pure (by decide)
  unfold Compiler.osRow
  exact (parseInx h.2.1).bind fun n hn => (matchPart h.1 he.os).bind fun _ _ => hv.bind fun v hv => pure ⟨hn, hv⟩

theorem mem_insertBy {α : Type} {key : α → Bytes} {a x : α} {l : List α} (h : x ∈ insertBy key a l) : x = a ∨ x ∈ l := by
  induction l with
  | nil => exact .inl (List.mem_singleton.mp h)
  | cons b l ih =>
    unfold insertBy at h
    split at h
    · exact List.mem_cons.mp h
    · rcases List.mem_cons.mp h with rfl | h
      · exact .inr (List.mem_cons_self ..)
      · rcases ih h with h | h
        · exact .inl h
        · exact .inr (List.mem_cons_of_mem _ h)

theorem mem_sortBy {α : Type} {key : α → Bytes} {x : α} {l : List α} (h : x ∈ sortBy key l) : x ∈ l := by
  induction l with
  | nil => exact h
  | cons b l ih =>
    rcases mem_insertBy (show x ∈ insertBy key b (sortBy key l) from h) with rfl | h
    · exact List.mem_cons_self ..
    · exact List.mem_cons_of_mem _ (ih h)

theorem clientVersion {v : Bytes} (h : ∀ x, v = 36 :: x → clientIx x ≠ -128) : Keeps (clientVersion v) (fun r => r.2 ≠ -128) := by
  unfold Compiler.clientVersion
  split
  · exact pure (by decide)
  · rename_i r
    exact pure (h r rfl)
  · exact (add _).bind fun _ _ => pure (show (-1 : Int8) ≠ -128 by decide)

theorem clientEngine {o : Option EngineRule} (h : ∀ en, o = some en → RawOK en.default ∧ ∀ v ∈ en.versions, QuotedOK v.1 ∧ RawOK v.2) :
    Keeps (clientEngine o) (fun _ => True) := by
  cases o with
  | none => exact pure trivial
  | some en =>
    obtain ⟨h1, h2⟩ := h en rfl
    unfold Compiler.clientEngine
    refine (bind (Q := fun _ => True) ?_ fun d _ => ?_)
    · split
      · exact (add _).bind fun _ _ => (pushEngine h1).bind fun _ _ => pure trivial
      · exact pure trivial
    · split
      · have hf : Keeps (engineFn en.versions d) (fun f => ∀ c ∈ f.cases, QuotedOK c.1) := by
          unfold engineFn
          exact (forList (Q := fun c => QuotedOK c.1) fun x hx => (add _).bind fun _ _ => pure (h2 x (mem_sortBy hx)).1).bind fun cs hcs => pure hcs
        exact hf.bind fun f hf => (pushEf hf).bind fun _ _ => (forList fun x hx => pushEngine (h2 x hx).2).bind fun _ _ => pure trivial
      · exact pure trivial

theorem clientRow {env : Env} (he : env.Writable) {t : ClientRule} (h : RawOK t.regex ∧ ∀ x, t.version = 36 :: x → clientIx x ≠ -128)
    (hn : ∀ en, t.engine = some en → RawOK en.default ∧ ∀ v ∈ en.versions, QuotedOK v.1 ∧ RawOK v.2) :
    Keeps (clientRow env t) (fun w => w.browserVI ≠ -128) := by
  unfold Compiler.clientRow
  exact (matchPart h.1 he.client).bind fun _ _ => (addNE _).bind fun _ _ => (clientVersion h.2).bind fun v hv => (clientEngine hn).bind fun _ _ =>
    (addNE _).bind fun _ _ => (addNE _).bind fun _ _ => pure hv

theorem evRows (ns : List Bytes) (i : Nat) : Keeps (evRows i ns) (fun l => l.length = ns.length) := by
  induction ns generalizing i with
  | nil => exact pure rfl
  | cons n ns ih =>
    unfold Compiler.evRows
    exact (add _).bind fun _ _ => (ih _).bind fun l hl => pure (by simp [hl])

theorem vendorRow {t : VendorRule} (h : ∀ p ∈ t.regex, RawOK p) : Keeps (vendorRow t) (fun _ => True) := by
  unfold Compiler.vendorRow
  exact (add _).bind fun _ _ => lenRe.bind fun _ _ => (forList fun p hp => pushRe (Go.rawOK_append (h p hp) (by decide))).bind fun _ _ =>
    lenRe.bind fun _ _ => pure trivial

theorem deviceRow {env : Env} (he : env.Writable) {t : DeviceRule} (h : RawOK t.regex ∧ ∀ m ∈ t.models, RawOK m.regex) :
    Keeps (deviceRow env t) (fun _ => True) := by
  have hm : Keeps (deviceModels env t) (fun _ => True) := by
    unfold deviceModels
    split
    · refine lenDm.bind fun _ _ => (forList (Q := fun _ => True) fun m hm => ?_).bind fun _ _ => lenDm.bind fun _ _ => pure trivial
      unfold modelRow
      exact (matchPart (h.2 m hm) he.device).bind fun _ _ => (add _).bind fun _ _ => (add _).bind fun _ _ => pushDm _
    · split
      · exact (add _).bind fun _ _ => (pushDm _).bind fun _ _ => lastDm.bind fun _ _ => pure trivial
      · exact pure trivial
  unfold Compiler.deviceRow
  refine (add _).bind fun _ _ => (add _).bind fun _ _ => (matchPart ?_ he.device).bind fun _ _ => hm.bind fun _ _ => pure trivial
  cases e : env.staticRepl t.regex with
  | none => exact h.1
  | some p => exact he.static _ p e

end Keeps

theorem writable_empty : ({} : St).Writable := ⟨by simp, by simp, by simp, by simp⟩

theorem raw_evPattern {n : Bytes} (h : RawOK n) : RawOK (evPattern n) := by
  unfold evPattern
  split
  · decide
  · refine Go.rawOK_append ?_ (by decide)
    split
    · decide
    · exact h

theorem nodup_insertBy {α : Type} {key : α → Bytes} {a : α} {l : List α} (h : l.Nodup) (ha : a ∉ l) : (insertBy key a l).Nodup := by
  induction l with
  | nil => simp [insertBy]
  | cons b l ih =>
    rw [List.nodup_cons] at h
    unfold insertBy
    split
    · exact List.nodup_cons.mpr ⟨ha, List.nodup_cons.mpr h⟩
    · refine List.nodup_cons.mpr ⟨fun hb => ?_, ih h.2 fun h => ha (List.mem_cons_of_mem _ h)⟩
      rcases Keeps.mem_insertBy hb with rfl | hb
      · exact ha (List.mem_cons_self ..)
      · exact h.1 hb

theorem nodup_sortBy {α : Type} {key : α → Bytes} {l : List α} (h : l.Nodup) : (sortBy key l).Nodup := by
  induction l with
  | nil => exact h
  | cons a l ih =>
    rw [List.nodup_cons] at h
    exact nodup_insertBy (ih h.2) fun ha => h.1 (Keeps.mem_sortBy ha)

theorem nodup_eraseDups {α : Type} [BEq α] [LawfulBEq α] (l : List α) : l.eraseDups.Nodup := by
  generalize hn : l.length = n
  induction n using Nat.strongRecOn generalizing l with
  | _ n ih =>
    cases l with
    | nil => simp
    | cons a l =>
      rw [List.eraseDups_cons, List.nodup_cons]
      have h := List.length_filter_le (fun b => !b == a) l
      simp only [List.length_cons] at hn
      refine ⟨fun hm => ?_, ih _ (by omega) _ rfl⟩
      have := List.mem_eraseDups.mp hm
      simp at this

theorem in32_of {i : Int} {n : Nat} (h : i = -1 ∨ 0 ≤ i ∧ i.toNat < n) (hn : n ≤ 2 ^ 31) : Go.In32 i := by
  unfold Go.In32
  omega

theorem compile_parts {env : Env} {hash : Bytes → UInt64} {r : Rules} {o : Outputs} (ho : compile env hash r = some o) :
    compileClient env r.client = some o.client ∧ compileOS env r.os = some o.os ∧ compileDevice env r.device = some o.device ∧
      compileVendor r.vendor = some o.vendor ∧ compileHint hash r.hint = some o.hint := by
  unfold compile at ho
  simp only [Option.bind_eq_bind, Option.bind_eq_some_iff] at ho
  obtain ⟨c, h1, os, h2, d, h3, v, h4, h, h5, e⟩ := ho
  cases e
  exact ⟨h1, h2, h3, h4, h5⟩

theorem nodup_map_on {α β : Type} {f : α → β} {l : List α} (hl : l.Nodup) (h : ∀ x ∈ l, ∀ y ∈ l, f x = f y → x = y) : (l.map f).Nodup := by
  induction l with
  | nil => simp
  | cons a l ih =>
    rw [List.nodup_cons] at hl
    rw [List.map_cons, List.nodup_cons]
    refine ⟨fun hm => ?_, ih hl.2 fun x hx y hy => h x (List.mem_cons_of_mem _ hx) y (List.mem_cons_of_mem _ hy)⟩
    obtain ⟨b, hb, e⟩ := List.mem_map.mp hm
    rw [h b (List.mem_cons_of_mem _ hb) a (List.mem_cons_self ..) e] at hb
    exact hl.1 hb

theorem fits {env : Env} (he : env.Writable) {hash : Bytes → UInt64} {r : Rules} (hr : r.Writable hash) {o : Outputs}
    (ho : compile env hash r = some o) (hs : o.Small) (hv : o.client.evre.length ≤ 2 ^ 31) : Go.Fits o := by
  obtain ⟨pc, po, pd, pv, ph⟩ := compile_parts ho
  obtain ⟨i1, i2, i3, i4, i5, i6, i7, i8⟩ := C46_in_range ho hs
  obtain ⟨co, hc, cden⟩ := client_ok env r.client
  rw [pc] at hc
  cases hc
  obtain ⟨_, _, cre, clen, cev⟩ := cden hs.client
  have wc : o.client.st.Writable ∧ ∀ ws ∈ o.client.rows, ∀ w ∈ ws, w.browserVI ≠ -128 := by
    unfold compileClient at pc
    split at pc
    · cases pc
    · rename_i rows s e1
      obtain ⟨ws, wr⟩ := Keeps.forList (fun f hf => Keeps.forList fun t ht => Keeps.clientRow he (hr.client f hf t ht) (hr.engine f hf t ht)) _ _ _ e1
        writable_empty
      dsimp only at pc
      split at pc
      · cases pc
      · rename_i ev s' e2
        obtain ⟨ws', _⟩ := Keeps.evRows _ _ _ _ _ e2 ws
        rw [← Option.some.inj pc]
        exact ⟨ws', wr⟩
  obtain ⟨wo, wor⟩ := Keeps.forList (fun t ht => Keeps.osRow he (hr.os t ht)) _ _ _ po writable_empty
  obtain ⟨wd, _⟩ := Keeps.forList (fun f hf => Keeps.forList fun t ht => Keeps.deviceRow he (hr.device f hf t (Keeps.mem_sortBy ht))) _ _ _ pd writable_empty
  obtain ⟨wv, _⟩ := Keeps.forList (fun t ht => Keeps.vendorRow (hr.vendor t (Keeps.mem_sortBy ht))) _ _ _ pv writable_empty
  obtain ⟨hl, hrows, hF, hh, hhe, hden⟩ := hint_ok hash r.hint
  rw [ph] at hh
  have hS := hs.hint
  rw [Option.some.inj hh] at hS
  refine ⟨fun ws hws w hw => ?_, wc.1.re, fun p hp => ?_, wc.1.ef, fun x hx => ?_, ?_, fun w hw => ?_, fun w hw => ?_, wo.re, fun ws hws w hw => ?_, fun w hw => ?_, wd.re,
    wv.re, ?_⟩
  · obtain ⟨j1, j2, _⟩ := i1 ws hws w hw
    exact ⟨in32_of j1 hs.client.re, wc.2 ws hws w hw, in32_of j2 hs.client.ef⟩
  · rw [cre] at hp
    obtain ⟨n, hn, rfl⟩ := List.mem_map.mp hp
    exact raw_evPattern (wc.1.engines n (engineNames_mem.mp hn).1)
  · exact Nat.lt_of_lt_of_le (i8 x hx).1 hv
  · have hlen : o.client.ev.length = (engineNames o.client.st.engines).length := by rw [clen, cre, List.length_map]
    have hnd : (engineNames o.client.st.engines).Nodup := by
      unfold engineNames
      exact nodup_sortBy ((nodup_eraseDups _).filter _)
    unfold List.Nodup
    rw [List.pairwise_iff_getElem]
    intro i j hi hj hij e
    rw [List.length_map] at hi hj
    simp only [List.getElem_map] at e
    have t1 := (cev i _ _ (List.getElem?_eq_getElem (by omega)) (List.getElem?_eq_getElem hi)).2
    have t2 := (cev j _ _ (List.getElem?_eq_getElem (by omega)) (List.getElem?_eq_getElem hj)).2
    rw [e] at t1
    exact (List.pairwise_iff_getElem.mp hnd i j (by omega) (by omega) hij) (text_unique t1 t2)
  · exact ⟨(wor w hw).1, in32_of (i2 w hw).1 hs.os.re, (wor w hw).2⟩
  · exact ⟨in32_of (i3 w hw).1 hs.os.re, wo.ov w hw⟩
  · obtain ⟨j1, _, _, _, j2, _⟩ := i4 ws hws w hw
    exact ⟨in32_of j1 hs.device.re, in32_of j2 (by have := hs.device.dm; omega)⟩
  · exact in32_of (i5 w hw).1 hs.device.re
  · have hd := hden hS
    rw [Option.some.inj hh]
    dsimp only
    rw [hhe, List.map_map]
    have : (hl.map ((fun x : UInt64 × Entry64 => x.1) ∘ fun x => (hash x.1, x.2))) = (hl.map (·.1)).map hash := by rw [List.map_map]; rfl
    rw [this]
    refine nodup_map_on hd.nodup fun k hk k' hk' e => hr.hint k k' ?_ ?_ e
    · obtain ⟨⟨_, x⟩, h1, rfl⟩ := List.mem_map.mp hk
      obtain ⟨v, h2, _⟩ := hd.value _ _ h1
      rw [h2]; simp
    · obtain ⟨⟨_, x⟩, h1, rfl⟩ := List.mem_map.mp hk'
      obtain ⟨v, h2, _⟩ := hd.value _ _ h1
      rw [h2]; simp

end Verif.Compiler

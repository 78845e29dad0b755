import Verif.Proofs.Compiler
import Verif.Proofs.Check
/-
The modules as wholes, and from denotation to well-formed tables.
-/
namespace Verif.Compiler
open C (Spec)

theorem os_ok (env : Env) (rules : List OSRule) : ∃ rows F, compileOS env rules = some (rows, F) ∧ (Small F →
    All2 (OSDen env F) rules rows ∧ ∀ w ∈ F.ov, ∃ t ∈ rules, ∃ tv ∈ t.versions, OSVersionDen env F tv w) := by
  have h1 := spec_forList (f := osRow env) (R := fun F t w => OSDen env F t w) (spec_osRow env) rules
  have h2 := spec_forGrow (f := osRow env) (l := rules) (p := St.ov) (Q := fun F w => ∃ t ∈ rules, ∃ tv ∈ t.versions, OSVersionDen env F tv w)
    (fun t ht => (grow_osRow env t).mono fun s a s' F ⟨ws, e, hw⟩ => ⟨ws, e, fun w hw' => ⟨t, ht, hw w hw'⟩⟩)
  obtain ⟨a, s, e, _, h⟩ := (h1.and h2).start
  refine ⟨a, s, e, fun hS => ?_⟩
  obtain ⟨k1, ws, k2, k3⟩ := h hS
  refine ⟨k1, ?_⟩
  rw [k2]
  exact k3

theorem client_ok (env : Env) (files : List (List ClientRule)) : ∃ o, compileClient env files = some o ∧ (Small o.st →
    All2 (All2 (ClientDen env o.st)) files o.rows ∧ (∀ f ∈ o.st.ef, EfOK o.st f) ∧
    o.evre = (engineNames o.st.engines).map evPattern ∧ o.ev.length = o.evre.length ∧
    ∀ (j : Nat) n (x : Entry64 × Nat), (engineNames o.st.engines)[j]? = some n → o.ev[j]? = some x → x.2 = j ∧ Text o.st.buf.buf x.1 n) := by
  have h1 := spec_forList (f := C.forList (clientRow env)) (R := fun F f ws => All2 (ClientDen env F) f ws)
    (fun f => spec_forList (f := clientRow env) (R := fun F t w => ClientDen env F t w) (spec_clientRow env) f) files
  have h2 := spec_forGrow (f := C.forList (clientRow env)) (l := files) (p := St.ef) (Q := EfOK)
    (fun f _ => spec_forGrow (p := St.ef) (Q := EfOK) fun t _ => grow_clientRow env t)
  obtain ⟨rows, s, e1, hb, x1, k1⟩ := (h1.and h2).run {} bok_nil
  obtain ⟨ev, s', e2, hb2, x2, k2⟩ := (spec_evRows 0 (engineNames s.engines)).run s hb
  refine ⟨{ rows := rows, ev := ev, evre := (engineNames s.engines).map evPattern, st := s' }, ?_, fun hS => ?_⟩
  · unfold compileClient
    rw [e1]
    dsimp only
    rw [e2]
  · dsimp only at hS ⊢
    obtain ⟨k3, ws, k4, k5⟩ := k1 s' x2 hS
    obtain ⟨⟨k6, k7⟩, heng, hef⟩ := k2 s' (Ext.refl s') hS
    rw [heng, hef, k4]
    refine ⟨k3, ?_, rfl, by simp [k6], fun j n x hn hx => ?_⟩
    · exact k5
    · obtain ⟨a, b⟩ := k7 j n x hn hx
      exact ⟨by omega, b⟩

theorem device_ok (env : Env) (files : List (List DeviceRule)) : ∃ rows F, compileDevice env files = some (rows, F) ∧ (Small F →
    All2 (fun f ws => All2 (DeviceDen env F) (sortBy (·.name) f) ws) files rows ∧
    ∀ w ∈ F.dm, ∃ f ∈ files, ∃ t ∈ f, (∃ m ∈ t.models, ModelDen env F m w) ∨
      (t.model ≠ [] ∧ w.matchRI = -1 ∧ w.match64 = 0 ∧ w.type64 = 0 ∧ Text F.buf.buf w.model64 t.model)) := by
  have h1 := spec_forList (f := fun f => C.forList (deviceRow env) (sortBy (·.name) f)) (R := fun F f ws => All2 (DeviceDen env F) (sortBy (·.name) f) ws)
    (fun f => spec_forList (f := deviceRow env) (R := fun F t w => DeviceDen env F t w) (spec_deviceRow env) _) files
  have h2 := spec_forGrow (f := fun f => C.forList (deviceRow env) (sortBy (·.name) f)) (l := files) (p := St.dm)
    (Q := fun F w => ∃ f ∈ files, ∃ t ∈ f, (∃ m ∈ t.models, ModelDen env F m w) ∨
      (t.model ≠ [] ∧ w.matchRI = -1 ∧ w.match64 = 0 ∧ w.type64 = 0 ∧ Text F.buf.buf w.model64 t.model))
    (fun f hf => spec_forGrow fun t ht => (grow_deviceRow env t).mono fun s a s' F ⟨ws, e, hw⟩ =>
      ⟨ws, e, fun w hw' => ⟨f, hf, t, (sortBy_perm _ f).mem_iff.mp ht, hw w hw'⟩⟩)
  obtain ⟨a, s, e, _, h⟩ := (h1.and h2).start
  refine ⟨a, s, e, fun hS => ?_⟩
  obtain ⟨k1, ws, k2, k3⟩ := h hS
  refine ⟨k1, ?_⟩
  rw [k2]
  exact k3

theorem vendor_ok (rules : List VendorRule) : ∃ rows F, compileVendor rules = some (rows, F) ∧ (Small F →
    All2 (VendorDen F) (sortBy (·.name) rules) rows) := by
  obtain ⟨a, s, e, _, h⟩ := (spec_forList (f := vendorRow) (R := fun F t w => VendorDen F t w) spec_vendorRow (sortBy (·.name) rules)).start
  exact ⟨a, s, e, h⟩

theorem hint_ok (hash : Bytes → UInt64) (files : List (List (Bytes × Bytes))) : ∃ l rows F, compileHint hash files = some (rows, F) ∧
    rows = l.map (fun x => (hash x.1, x.2)) ∧ (Small F → HintDen F files l) := by
  obtain ⟨a, s, e, _, h⟩ := (spec_hintFiles files [] [] (by simp)).start
  refine ⟨a, _, s, ?_, rfl, fun hS => ?_⟩
  · unfold compileHint
    rw [e]
  · obtain ⟨h1, h2, h3⟩ := h hS
    exact ⟨fun k e hk => (h1 k e hk).2, fun k v hv => h2 k v (by simp) hv, h3⟩

/-! ### Well-formedness -/

theorem MatchDen.ix {compiles : Bytes → Bool} {repl : Bytes → Option Bytes} {F : St} {rs lit : Bytes} {ri : Int} {e : Entry64}
    (h : MatchDen compiles repl F rs lit ri e) : (ri = -1 ∧ InBuf F.buf.buf e) ∨ (0 ≤ ri ∧ ∃ p, F.re[ri.toNat]? = some p ∧ Special rs ∧
      ∃ n, normalizeRegex rs = some n ∧ p = (repl n).getD n ∧ compiles p = true) := by
  cases h with
  | lit _ hr he => exact .inl ⟨hr, _, he⟩
  | re n h hn hc hr hre he => exact .inr ⟨hr, _, hre, h, n, hn, rfl, hc⟩
  | bad _ _ _ _ hr he => subst he; exact .inl ⟨hr, inBuf_zero _⟩

theorem IxDen.inBuf {ix : Bytes → Int8} {F : St} {v : Bytes} {i : Int8} {e : Entry64} (h : IxDen ix F v i e) : InBuf F.buf.buf e := by
  cases h with
  | none _ _ he => subst he; exact inBuf_zero _
  | group _ _ _ he => subst he; exact inBuf_zero _
  | const _ _ _ _ ht => exact ⟨_, ht⟩

theorem IxDen.group_ok {ix : Bytes → Int8} {F : St} {v : Bytes} {i : Int8} {e : Entry64} (h : IxDen ix F v i e) {re : Re} {u : Bytes}
    (hr : RefOK re u v ix) (hm : re.isMatch u = true) : GroupIx re i := by
  cases h with
  | none _ hv _ => exact .inl hv
  | group r hx hv _ => rw [hv]; exact hr r hx hm
  | const _ _ hv _ _ => exact .inl hv

theorem EngineFn.run_ok {F : St} {f : EngineFn} (h : EfOK F f) (b : Bytes) : InBuf F.buf.buf (f.run b) := by
  unfold EngineFn.run
  split
  · rename_i x hx
    exact h.2 x (List.mem_of_find?_eq_some hx)
  · exact h.1

theorem engineNames_mem {l : List Bytes} {n : Bytes} : n ∈ engineNames l ↔ n ∈ l ∧ n ≠ [] := by
  unfold engineNames
  rw [(sortBy_perm id _).mem_iff, List.mem_filter, List.mem_eraseDups]
  cases n <;> simp

theorem all2_range {α β : Type} {R : α → β → Prop} {l : List α} {m : List β} {i : Nat} {a : α} (h : All2 R l m) (ha : l[i]? = some a) :
    ∃ b, m[i]? = some b ∧ R a b := by
  have hlt : i < m.length := by rw [← h.1]; exact (List.getElem?_eq_some_iff.mp ha).1
  exact ⟨m[i], List.getElem?_eq_getElem hlt, h.2 i a _ ha (List.getElem?_eq_getElem hlt)⟩

/-- Tables compiled from good rules are well formed. -/
theorem compiled_wf {env : Env} {hash : Bytes → UInt64} {lib : Bytes → Re} {r : Rules} {o : Outputs} {u : Bytes} (fb ft fm : Re)
    (hlib : ∀ p, (lib p).WF) (hev : ∀ n, n ∈ o.client.st.engines → n ≠ [] → MandatoryGroup (lib (anyCase (enginePattern n))))
    (ho : compile env hash r = some o) (hs : o.Small) (hr : RulesOK env lib r u) : WFfor (tablesOf lib fb ft fm o) u := by
  obtain ⟨co, hc, cden⟩ := client_ok env r.client
  obtain ⟨orows, oF, hos, oden⟩ := os_ok env r.os
  obtain ⟨drows, dF, hd, dden⟩ := device_ok env r.device
  obtain ⟨vrows, vF, hv, vden⟩ := vendor_ok r.vendor
  obtain ⟨hl, hrows, hF, hh, hhe, hden⟩ := hint_ok hash r.hint
  unfold compile at ho
  simp only [hc, hos, hd, hv, hh] at ho
  cases ho
  obtain ⟨c1, c2, c3, c4, c5⟩ := cden hs.client
  obtain ⟨o1, o2⟩ := oden hs.os
  obtain ⟨d1, d2⟩ := dden hs.device
  have v1 := vden hs.vendor
  have hd' := hden hs.hint
  have libmem : ∀ (l : List Bytes) (w : Bytes → Bytes) (re : Re), re ∈ l.map (fun p => lib (w p)) → re.WF := by
    intro l w re h
    obtain ⟨p, _, rfl⟩ := List.mem_map.mp h
    exact hlib _
  refine WFfor.of (fun i hi => ?_) ?_ ?_ ?_ ?_ ⟨?_, ?_⟩ ?_ (fun i hi => ?_) ?_ ?_ ?_ ?_ (libmem _ _) (libmem _ _) (libmem _ _) (libmem _ _)
  · obtain ⟨f, hf, hne⟩ := hr.clientFiles i hi
    obtain ⟨ws, hw, ha⟩ := all2_range c1 hf
    refine ⟨ws, hw, ?_⟩
    rintro rfl
    have := ha.1
    rw [List.length_nil] at this
    exact hne (List.length_eq_zero_iff.mp this)
  · intro rows hrows v hv
    obtain ⟨f, hf, ha⟩ := all2_right c1 hrows
    obtain ⟨t, ht, den⟩ := all2_right ha hv
    refine ⟨fun h0 => ?_, fun h0 => ?_, den.name.inBuf, den.ver.inBuf, ?_, fun hne => ?_⟩
    · rcases den.m.ix with ⟨h, _⟩ | ⟨_, p, hp, hpat⟩
      · omega
      · exact ⟨lib (wrapClient p), by simp [tablesOf, hp]⟩
    · rcases den.m.ix with ⟨_, h⟩ | ⟨h, _⟩
      · exact h
      · omega
    · cases he : t.engine with
      | none => rw [(den.noEngine he).1]; exact inBuf_zero _
      | some en => exact (den.engine en he).1.inBuf
    · cases he : t.engine with
      | none => exact absurd (den.noEngine he).2 hne
      | some en =>
        obtain ⟨_, k1, k2⟩ := den.engine en he
        have hvs : en.versions ≠ [] := fun h => hne (k1 h)
        obtain ⟨g1, f', g2, _⟩ := k2 hvs
        refine ⟨g1, ?_, ?_⟩
        · have := (List.getElem?_eq_some_iff.mp g2).1
          simpa [tablesOf] using this
        · have hcase := hr.clientEngine f hf t ht en he hvs
          cases den.ver with
          | none _ _ he => exact he
          | group _ _ _ he => exact he
          | const h1 h2 _ _ _ => exact absurd hcase (by rintro (h | h); exact h1 h; exact h2 h)
  · intro rows hrows v hv h0 _ re hre
    obtain ⟨f, hf, ha⟩ := all2_right c1 hrows
    obtain ⟨t, ht, den⟩ := all2_right ha hv.mem.1
    rcases den.m.ix with ⟨h, _⟩ | ⟨_, p, hp, hpat⟩
    · omega
    · have hm := row_re hv.mem.2 h0 hre
      simp only [tablesOf, List.getElem?_map, hp, Option.map_some, Option.some.injEq] at hre
      subst hre
      exact den.ver.group_ok (hr.clientRef f hf t ht p hpat) hm
  · intro f hf b
    obtain ⟨g, hg, rfl⟩ := List.mem_map.mp hf
    exact EngineFn.run_ok (c2 g hg) b
  · intro e i hi
    obtain ⟨x, hx, rfl⟩ := Option.map_eq_some_iff.mp hi
    obtain ⟨j, hj⟩ := List.getElem?_of_mem (List.mem_of_find?_eq_some hx)
    have hlt := (List.getElem?_eq_some_iff.mp hj).1
    rw [c4, c3, List.length_map] at hlt
    have hn := List.getElem?_eq_getElem hlt
    obtain ⟨hx2, _⟩ := c5 j _ x hn hj
    have hmem := engineNames_mem.mp (List.getElem_mem hlt)
    refine ⟨lib (wrapCI (evPattern (engineNames co.st.engines)[j])), ?_, hev _ hmem.1 hmem.2⟩
    rw [hx2]
    simp [tablesOf, c3, hn]
  · have := hr.os
    have h1 := o1.1
    intro h
    have h : orows = [] := h
    rw [h, List.length_nil] at h1
    exact this (List.length_eq_zero_iff.mp h1)
  · intro v hv
    obtain ⟨t, ht, den⟩ := all2_right o1 hv
    refine ⟨fun h0 => ?_, fun h0 => ?_, den.name.inBuf, ?_, fun hne => ?_⟩
    · rcases den.m.ix with ⟨h, _⟩ | ⟨_, p, hp, hpat⟩
      · omega
      · obtain ⟨g1, g2⟩ := hr.osRef t ht p hpat
        refine ⟨lib (wrapCI p), by simp [tablesOf, hp], fun hm => ⟨den.name.group_ok g1 hm, ?_⟩⟩
        by_cases hvs : t.versions = []
        · exact (den.ver hvs).2.group_ok (g2 hvs) hm
        · exact .inl (den.vers hvs).1
    · rcases den.m.ix with ⟨_, h⟩ | ⟨h, _⟩
      · exact h
      · omega
    · by_cases hvs : t.versions = []
      · exact (den.ver hvs).2.inBuf
      · rw [(den.vers hvs).2.1]; exact inBuf_zero _
    · by_cases hvs : t.versions = []
      · exact absurd (den.ver hvs).1 hne
      · obtain ⟨_, _, ws, ⟨a, b, e1, e2, e3⟩, hws⟩ := den.vers hvs
        have := hws.1
        have := List.length_pos_iff.mpr hvs
        have e1 : oF.ov = a ++ ws ++ b := e1
        refine ⟨by omega, ?_⟩
        show _ ≤ oF.ov.length
        rw [e1]
        simp only [List.length_append]
        omega
  · intro v hv
    obtain ⟨t, ht, tv, htv, den⟩ := o2 v hv
    refine ⟨fun h0 => ?_, fun h0 => ?_, den.v.inBuf⟩
    · rcases den.m.ix with ⟨h, _⟩ | ⟨_, p, hp, hpat⟩
      · omega
      · exact ⟨lib (wrapCI p), by simp [tablesOf, hp], fun hm => den.v.group_ok (hr.osVersionRef t ht tv htv p hpat) hm⟩
    · rcases den.m.ix with ⟨_, h⟩ | ⟨h, _⟩
      · exact h
      · omega
  · obtain ⟨f, hf, hne⟩ := hr.deviceFiles i hi
    obtain ⟨ws, hw, ha⟩ := all2_range d1 hf
    refine ⟨ws, hw, ?_⟩
    rintro rfl
    have := ha.1
    rw [List.length_nil, (sortBy_perm _ f).length_eq] at this
    exact hne (List.length_eq_zero_iff.mp this)
  · intro rows hrows v hv
    obtain ⟨f, hf, ha⟩ := all2_right d1 hrows
    obtain ⟨t, ht, den⟩ := all2_right ha hv
    refine ⟨fun h0 => ?_, fun h0 => ?_, fun h0 => ?_, ⟨_, den.typ⟩, ⟨_, den.brand⟩, fun hne => ?_, fun hm => ?_⟩
    · rcases den.m.ix with ⟨h, _⟩ | ⟨_, p, hp, hpat⟩
      · omega
      · exact ⟨lib (wrapCI p), by simp [tablesOf, hp]⟩
    · rcases den.m.ix with ⟨h, _⟩ | ⟨h, _⟩
      · exact h
      · omega
    · rcases den.m.ix with ⟨_, h⟩ | ⟨h, _⟩
      · exact h
      · omega
    · by_cases hms : t.models = []
      · by_cases hmo : t.model = []
        · exact absurd (den.none hms hmo).1 hne
        · obtain ⟨_, g1, x, g2, _⟩ := den.model hms hmo
          exact ⟨g1, (List.getElem?_eq_some_iff.mp g2).1⟩
      · exact absurd (den.models hms).1 hne
    · by_cases hms : t.models = []
      · by_cases hmo : t.model = []
        · rw [(den.none hms hmo).2]; exact .inl (by decide)
        · rw [(den.model hms hmo).1]; exact .inl (by decide)
      · obtain ⟨_, ws, ⟨a, b, e1, e2, e3⟩, _⟩ := den.models hms
        refine .inr ?_
        have e1 : dF.dm = a ++ ws ++ b := e1
        show _ ≤ dF.dm.length
        rw [e1]
        simp only [List.length_append]
        omega
  · intro v hv
    obtain ⟨f, hf, t, ht, hden⟩ := d2 v hv
    obtain ⟨m1, m2⟩ := hr.models f hf t ht
    rcases hden with ⟨m, hm, den⟩ | ⟨_, k1, k2, k3, k4⟩
    · refine ⟨fun h0 => ?_, fun h0 => ?_, ⟨_, den.typ⟩, ⟨_, den.model⟩, fun x hx => ?_⟩
      · rcases den.m.ix with ⟨h, _⟩ | ⟨_, p, hp, hpat⟩
        · omega
        · exact ⟨lib (wrapCI p), by simp [tablesOf, hp]⟩
      · rcases den.m.ix with ⟨_, h⟩ | ⟨h, _⟩
        · exact h
        · omega
      · rw [text_unique hx den.model]
        exact m2 m hm
    · refine ⟨fun h0 => by omega, fun _ => by rw [k2]; exact inBuf_zero _, by rw [k3]; exact inBuf_zero _, ⟨_, k4⟩, fun x hx => ?_⟩
      rw [text_unique hx k4]
      exact m1
  · intro v hv
    obtain ⟨t, ht, den⟩ := all2_right v1 hv
    refine ⟨⟨_, den.brand⟩, .inr ?_⟩
    obtain ⟨a, b, e1, e2, e3⟩ := den.res
    have e1 : vF.re = _ := e1
    show _ ≤ (vF.re.map lib).length
    rw [List.length_map, e1]
    simp only [List.length_append]
    omega
  · intro h e he
    obtain ⟨x, hx, rfl⟩ := Option.map_eq_some_iff.mp he
    have hm := List.mem_of_find?_eq_some hx
    have hm : x ∈ hrows := hm
    rw [hhe] at hm
    obtain ⟨y, hy, rfl⟩ := List.mem_map.mp hm
    obtain ⟨v, _, ht⟩ := hd'.value y.1 y.2 hy
    exact ⟨v, ht⟩

end Verif.Compiler

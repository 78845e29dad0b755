import Verif.Proofs.EmitFiles
/-
The emitted files, read back, are the tables.
-/
namespace Verif.Go
open Verif.Compiler

theorem strGe_eq (s c : Bytes) : strGe s c = decide (c ≤ s) := by
  induction c generalizing s with
  | nil => simp [strGe]
  | cons y ys ih =>
    cases s with
    | nil => simp [strGe]
    | cons x xs =>
      rw [strGe, ih]
      apply Bool.eq_iff_iff.mpr
      simp only [Bool.or_eq_true, Bool.and_eq_true, decide_eq_true_eq, List.cons_le_cons_iff]
      constructor
      · rintro (h | ⟨rfl, h⟩)
        · exact .inl h
        · exact .inr ⟨rfl, h⟩
      · rintro (h | ⟨rfl, h⟩)
        · exact .inl h
        · exact .inr ⟨rfl, h⟩

theorem run_eq (f : EngineFn) : (fun s => ((f.cases.find? fun c => decide (c.1 ≤ s)).map (·.2)).getD f.default) = f.run := by
  funext s
  unfold EngineFn.run
  have : (fun x : Bytes × Entry64 => strGe s x.1) = fun c => decide (c.1 ≤ s) := by funext x; exact strGe_eq _ _
  rw [this]
  cases f.cases.find? fun c => decide (c.1 ≤ s) <;> rfl

theorem ev_eq (o : ClientOut) :
    (fun e => (((o.ev.map fun x => (x.1, (x.2 : Int))).find? fun x => x.1 == e).map (·.2)).map Int.toNat) = o.evLookup := by
  funext e
  unfold ClientOut.evLookup
  rw [List.find?_map]
  simp only [Option.map_map]
  rfl

theorem engineSlice (fs : List EngineFn) : slice "engineFn" Go.engineFn (tabTrees "engineFn" efTrees fs) = some (fs.map fun f => (f.cases, f.default)) := by
  unfold tabTrees
  simp only [slice, if_true, items_flatMap fs fun f _ => noSep_ef f]
  exact allM_map fs fun f _ => engineFn_spec f

/-- What the emitted text depends on: the texts can be written, the numbers fit. -/
structure Fits (o : Outputs) : Prop where
  clientRow : ∀ ws ∈ o.client.rows, ∀ w ∈ ws, In32 w.matchRI ∧ w.browserVI ≠ -128 ∧ In32 w.engineFI
  clientRe : ∀ p ∈ o.client.st.re, RawOK p
  evre : ∀ p ∈ o.client.evre, RawOK p
  ef : ∀ f ∈ o.client.st.ef, ∀ c ∈ f.cases, QuotedOK c.1
  ev : ∀ x ∈ o.client.ev, x.2 < 2 ^ 31
  evKey : (o.client.ev.map (·.1)).Nodup
  osRow : ∀ w ∈ o.os.1, w.nameSI ≠ -128 ∧ In32 w.matchRI ∧ w.versionSI ≠ -128
  ov : ∀ w ∈ o.os.2.ov, In32 w.matchRI ∧ w.versionSI ≠ -128
  osRe : ∀ p ∈ o.os.2.re, RawOK p
  deviceRow : ∀ ws ∈ o.device.1, ∀ w ∈ ws, In32 w.matchRI ∧ In32 w.modelSI
  dm : ∀ w ∈ o.device.2.dm, In32 w.matchRI
  deviceRe : ∀ p ∈ o.device.2.re, RawOK p
  vendorRe : ∀ p ∈ o.vendor.2.re, RawOK p
  hintKey : (o.hint.1.map (·.1)).Nodup

theorem tables_spec (lib : Bytes → Re) (fb ft fm : Re) {args : Fin 5 → List Bytes} (ha : ∀ i, ∀ a ∈ args i, LineOK a) {o : Outputs} (ho : Fits o)
    {cf : List (Bytes × List ClientRow)} (hcf : cf.map (fun f => f.2.map (·.1)) = o.client.rows) (hcl : ∀ f ∈ cf, LineOK f.1)
    {df : List (Bytes × List DeviceTuple)} (hdf : df.map (·.2) = o.device.1) (hdl : ∀ f ∈ df, LineOK f.1)
    {hf : List (Bytes × List (UInt64 × Entry64))} (hhf : hf.flatMap (·.2) = o.hint.1) (hhl : ∀ f ∈ hf, LineOK f.1) :
    tables lib fb ft fm ⟨emitClient (args 0) cf o.client, emitOS (args 1) o.os.1 o.os.2, emitDevice (args 2) df o.device.2,
      emitVendor (args 3) o.vendor.1 o.vendor.2, emitHint (args 4) hf o.hint.2⟩ = some (tablesOf lib fb ft fm o) := by
  have hc : ∀ f ∈ cf, ∀ w ∈ f.2, In32 w.1.matchRI ∧ w.1.browserVI ≠ -128 ∧ In32 w.1.engineFI := by
    intro f hf w hw
    refine ho.clientRow (f.2.map (·.1)) ?_ w.1 (List.mem_map_of_mem hw)
    rw [← hcf]
    exact List.mem_map_of_mem (f := fun f : Bytes × List ClientRow => f.2.map (·.1)) hf
  have hd : ∀ f ∈ df, ∀ w ∈ f.2, In32 w.matchRI ∧ In32 w.modelSI := by
    intro f hf w hw
    refine ho.deviceRow f.2 ?_ w hw
    rw [← hdf]
    exact List.mem_map_of_mem (f := fun f : Bytes × List DeviceTuple => f.2) hf
  have nc : ((clientDecls cf o.client).map fun d => ascii d.1).Nodup := by simp only [clientDecls, List.map_cons, List.map_nil]; decide
  have no : ((osDecls o.os.1 o.os.2).map fun d => ascii d.1).Nodup := by simp only [osDecls, List.map_cons, List.map_nil]; decide
  have nd : ((deviceDecls df o.device.2).map fun d => ascii d.1).Nodup := by simp only [deviceDecls, List.map_cons, List.map_nil]; decide
  have nv : ((vendorDecls o.vendor.1 o.vendor.2).map fun d => ascii d.1).Nodup := by simp only [vendorDecls, List.map_cons, List.map_nil]; decide
  have nh : ((hintDecls (hf.flatMap (·.2)) o.hint.2).map fun d => ascii d.1).Nodup := by simp only [hintDecls, List.map_cons, List.map_nil]; decide
  have c1 := value_spec nc (name := "__cr_idx") (by simp [clientDecls]; rfl) (array "clientTuple" Go.clientTuple)
  have c2 := value_spec nc (name := "__cr_re") (by simp [clientDecls]; rfl) patterns
  have c3 := value_spec nc (name := "__cr_ef") (by simp [clientDecls]; rfl) (slice "engineFn" Go.engineFn)
  have c4 := value_spec nc (name := "__cr_ev") (by simp [clientDecls]; rfl) mapEntryInt
  have c5 := value_spec nc (name := "__cr_evre") (by simp [clientDecls]; rfl) patterns
  have c6 := value_spec nc (name := "__cr_buf") (by simp [clientDecls]; rfl) bytes
  have o1 := value_spec no (name := "__or_os") (by simp [osDecls]; rfl) (slice "osTuple" Go.osTuple)
  have o2 := value_spec no (name := "__or_ov") (by simp [osDecls]; rfl) (slice "osVersionTuple" Go.osVersionTuple)
  have o3 := value_spec no (name := "__or_re") (by simp [osDecls]; rfl) patterns
  have o4 := value_spec no (name := "__or_buf") (by simp [osDecls]; rfl) bytes
  have d1 := value_spec nd (name := "__dr_idx") (by simp [deviceDecls]; rfl) (array "deviceTuple" Go.deviceTuple)
  have d2 := value_spec nd (name := "__dr_dm") (by simp [deviceDecls]; rfl) (slice "modelTuple" Go.modelTuple)
  have d3 := value_spec nd (name := "__dr_re") (by simp [deviceDecls]; rfl) patterns
  have d4 := value_spec nd (name := "__dr_buf") (by simp [deviceDecls]; rfl) bytes
  have v1 := value_spec nv (name := "__vr_idx") (by simp [vendorDecls]; rfl) (slice "vendorTuple" Go.vendorTuple)
  have v2 := value_spec nv (name := "__vr_re") (by simp [vendorDecls]; rfl) patterns
  have v3 := value_spec nv (name := "__vr_buf") (by simp [vendorDecls]; rfl) bytes
  have h1 := value_spec nh (name := "__hr_idx") (by simp [hintDecls]; rfl) mapIntEntry
  have h2 := value_spec nh (name := "__hr_buf") (by simp [hintDecls]; rfl) bytes
  replace c1 := c1.trans (array_spec cf (fun f _ w _ => noSep_tuple _ _ _) fun f hf w hw => clientTuple_spec (hc f hf w hw).1 (hc f hf w hw).2.2)
  replace c2 := c2.trans (patterns_spec _)
  replace c3 := c3.trans (engineSlice _)
  replace c4 := c4.trans (mapBody_spec (rk := uint64) (rv := int32) o.client.ev (fun x _ => uint64_num x.1)
    (fun x hx => int32_num (by omega) (by have := ho.ev x hx; omega)) ho.evKey)
  replace c5 := c5.trans (patterns_spec _)
  replace c6 := c6.trans (bytes_spec _)
  replace o1 := o1.trans (slice_spec o.os.1 (fun w _ => noSep_tuple _ _ _) fun w hw => osTuple_spec (ho.osRow w hw).2.1)
  replace o2 := o2.trans (slice_spec o.os.2.ov (fun w _ => noSep_tuple _ _ _) fun w hw => osVersionTuple_spec (ho.ov w hw).1)
  replace o3 := o3.trans (patterns_spec _)
  replace o4 := o4.trans (bytes_spec _)
  replace d1 := d1.trans (array_spec df (fun f _ w _ => noSep_tuple _ _ _) fun f hf w hw => deviceTuple_spec (hd f hf w hw).1 (hd f hf w hw).2)
  replace d2 := d2.trans (slice_spec o.device.2.dm (fun w _ => noSep_tuple _ _ _) fun w hw => modelTuple_spec (ho.dm w hw))
  replace d3 := d3.trans (patterns_spec _)
  replace d4 := d4.trans (bytes_spec _)
  replace v1 := v1.trans (slice_spec o.vendor.1 (fun w _ => noSep_tuple _ _ _) fun w hw => vendorTuple_spec)
  replace v2 := v2.trans (patterns_spec _)
  replace v3 := v3.trans (bytes_spec _)
  replace h1 := h1.trans (mapBody_spec (rk := uint64) (rv := uint64) (hf.flatMap fun f : Bytes × List (UInt64 × Entry64) => f.2) (fun x _ => uint64_num x.1) (fun x _ => uint64_num x.2)
    (by rw [hhf]; exact ho.hintKey))
  replace h2 := h2.trans (bytes_spec _)
  unfold tables
  rw [file_client (ha 0) cf o.client hcl ho.clientRe ho.evre ho.ef hc ho.ev, file_os (ha 1) o.os.1 o.os.2 ho.osRe ho.osRow ho.ov,
    file_device (ha 2) df o.device.2 hdl ho.deviceRe hd ho.dm, file_vendor (ha 3) o.vendor.1 o.vendor.2 ho.vendorRe, file_hint (ha 4) hf o.hint.2 hhl]
  simp only [Option.bind_eq_bind, Option.bind_some]
  rw [c1, c2, c3, c4, c5, c6, o1, o2, o3, o4, d1, d2, d3, d4, v1, v2, v3, h1, h2]
  simp only [Option.bind_some, Option.pure_def, Option.some.injEq, List.map_map]
  unfold tablesOf
  rw [ev_eq, ← hcf, ← hdf, ← hhf]
  congr 1
  · exact List.map_congr_left fun f _ => run_eq f
  · rw [List.map_id']

end Verif.Go

import Verif.Proofs.Emit
/-
What the five emitted files mean.
-/
namespace Verif.Go
open Compiler

/-! ### Rows -/

/-- Fits into an int32 and has an opposite there. -/
def In32 (i : Int) : Prop := -2 ^ 31 < i ∧ i < 2 ^ 31

theorem reads_fields {name : String} (hn : nameOK name = true) {fs : List Field} (hne : fs ≠ []) (h : ∀ y ∈ fs, y.OK) :
    Reads false (sprintTuple name (fs.map fun y => (y.1, y.2.1))) (tupleTrees name fs) true := by
  cases fs with
  | nil => exact absurd rfl hne
  | cons x xs => exact reads_tuple hn h false

theorem struct_fields {name : String} {known : List String} {fs : List Field} (hne : fs ≠ []) (hk : fs.map (·.1) = known)
    (hd : (known.map ascii).Nodup) : struct name known (tupleTrees name fs) = some (fs.map fun y => (ascii y.1, num y.2.2)) := by
  cases fs with
  | nil => exact absurd rfl hne
  | cons x xs => exact struct_tuple hk hd

theorem field_spec {α : Type} {zero : α} {read : List Tree → Option α} {fs : List Field} (hd : (fs.map fun y => ascii y.1).Nodup) {f : String}
    {s : Bytes} {v : Int} {x : α} (hm : (f, s, v) ∈ fs) (hr : read (num v) = some x) :
    field zero read (fs.map fun y => (ascii y.1, num y.2.2)) f = some x := by
  have : (fs.map fun y => (ascii y.1, num y.2.2)).lookup (ascii f) = some (num v) := by
    induction fs with
    | nil => cases hm
    | cons y fs ih =>
      rw [List.map_cons, List.nodup_cons] at hd
      rw [List.map_cons]
      rcases List.mem_cons.mp hm with rfl | hm
      · exact List.lookup_cons_self
      · have hne : (ascii f == ascii y.1) = false := by
          apply beq_false_of_ne
          intro e
          exact hd.1 (List.mem_map.mpr ⟨_, hm, e⟩)
        rw [List.lookup_cons, hne]
        exact ih hd.2 hm
  unfold field
  rw [this]
  exact hr

theorem field_ok {f : String} {s : Bytes} {v : Int} (hf : nameOK f = true) (h : NumText s v) : Field.OK (f, s, v) := ⟨hf, h⟩

def vendorFields (w : VendorTuple) : List Field :=
  [("brand64", hex64 w.brand64, w.brand64.toNat),
    ("range64", hex64 w.range64, w.range64.toNat)]

theorem reads_vendorRow {w : VendorTuple} :
    Reads false (emitVendorRow w) (tupleTrees "vendorTuple" (vendorFields w)) true := by
  have := reads_fields (name := "vendorTuple") (fs := vendorFields w) (by decide) (by simp [vendorFields]) fun y hy => by
    simp only [vendorFields, List.mem_cons, List.not_mem_nil, or_false] at hy
    rcases hy with rfl | rfl
    · exact field_ok (by decide) (num64 _)
    · exact field_ok (by decide) (num64 _)
  simp only [vendorFields, List.map_cons, List.map_nil] at this
  exact this

theorem vendorTuple_spec {w : VendorTuple} : vendorTuple (tupleTrees "vendorTuple" (vendorFields w)) = some w := by
  have hd : ((vendorFields w).map fun y => ascii y.1).Nodup := by
    simp only [vendorFields, List.map_cons, List.map_nil]; decide
  unfold vendorTuple
  rw [struct_fields (by simp [vendorFields]) (by simp [vendorFields]) (by decide)]
  simp only [Option.bind_eq_bind, Option.bind_some]
  rw [field_spec hd (s := hex64 w.brand64) (v := w.brand64.toNat) (by simp [vendorFields]) (uint64_num _),
    field_spec hd (s := hex64 w.range64) (v := w.range64.toNat) (by simp [vendorFields]) (uint64_num _)]
  rfl

def osFields (w : OSTuple) : List Field :=
  [("name64", hex64 w.name64, w.name64.toNat),
    ("nameSI", hex8 w.nameSI, w.nameSI.toInt),
    ("matchRI", hex32 w.matchRI, w.matchRI),
    ("match64", hex64 w.match64, w.match64.toNat),
    ("versionSI", hex8 w.versionSI, w.versionSI.toInt),
    ("version64", hex64 w.version64, w.version64.toNat),
    ("versions64", hex64 w.versions64, w.versions64.toNat)]

theorem reads_osRow {w : OSTuple} (h_nameSI : w.nameSI ≠ -128) (h_matchRI : In32 w.matchRI) (h_versionSI : w.versionSI ≠ -128) :
    Reads false (emitOSRow w) (tupleTrees "osTuple" (osFields w)) true := by
  have := reads_fields (name := "osTuple") (fs := osFields w) (by decide) (by simp [osFields]) fun y hy => by
    simp only [osFields, List.mem_cons, List.not_mem_nil, or_false] at hy
    rcases hy with rfl | rfl | rfl | rfl | rfl | rfl | rfl
    · exact field_ok (by decide) (num64 _)
    · exact field_ok (by decide) (num8 h_nameSI)
    · exact field_ok (by decide) (num32 h_matchRI.1 h_matchRI.2)
    · exact field_ok (by decide) (num64 _)
    · exact field_ok (by decide) (num8 h_versionSI)
    · exact field_ok (by decide) (num64 _)
    · exact field_ok (by decide) (num64 _)
  simp only [osFields, List.map_cons, List.map_nil] at this
  exact this

theorem osTuple_spec {w : OSTuple} (h_matchRI : In32 w.matchRI) : osTuple (tupleTrees "osTuple" (osFields w)) = some w := by
  have hd : ((osFields w).map fun y => ascii y.1).Nodup := by
    simp only [osFields, List.map_cons, List.map_nil]; decide
  unfold osTuple
  rw [struct_fields (by simp [osFields]) (by simp [osFields]) (by decide)]
  simp only [Option.bind_eq_bind, Option.bind_some]
  rw [field_spec hd (s := hex64 w.name64) (v := w.name64.toNat) (by simp [osFields]) (uint64_num _),
    field_spec hd (s := hex8 w.nameSI) (v := w.nameSI.toInt) (by simp [osFields]) (int8_num _),
    field_spec hd (s := hex32 w.matchRI) (v := w.matchRI) (by simp [osFields]) (int32_num h_matchRI.1 h_matchRI.2),
    field_spec hd (s := hex64 w.match64) (v := w.match64.toNat) (by simp [osFields]) (uint64_num _),
    field_spec hd (s := hex8 w.versionSI) (v := w.versionSI.toInt) (by simp [osFields]) (int8_num _),
    field_spec hd (s := hex64 w.version64) (v := w.version64.toNat) (by simp [osFields]) (uint64_num _),
    field_spec hd (s := hex64 w.versions64) (v := w.versions64.toNat) (by simp [osFields]) (uint64_num _)]
  rfl

def osVersionFields (w : OSVersionTuple) : List Field :=
  [("matchRI", hex32 w.matchRI, w.matchRI),
    ("match64", hex64 w.match64, w.match64.toNat),
    ("versionSI", hex8 w.versionSI, w.versionSI.toInt),
    ("version64", hex64 w.version64, w.version64.toNat)]

theorem reads_osVersionRow {w : OSVersionTuple} (h_matchRI : In32 w.matchRI) (h_versionSI : w.versionSI ≠ -128) :
    Reads false (emitOSVersionRow w) (tupleTrees "osVersionTuple" (osVersionFields w)) true := by
  have := reads_fields (name := "osVersionTuple") (fs := osVersionFields w) (by decide) (by simp [osVersionFields]) fun y hy => by
    simp only [osVersionFields, List.mem_cons, List.not_mem_nil, or_false] at hy
    rcases hy with rfl | rfl | rfl | rfl
    · exact field_ok (by decide) (num32 h_matchRI.1 h_matchRI.2)
    · exact field_ok (by decide) (num64 _)
    · exact field_ok (by decide) (num8 h_versionSI)
    · exact field_ok (by decide) (num64 _)
  simp only [osVersionFields, List.map_cons, List.map_nil] at this
  exact this

theorem osVersionTuple_spec {w : OSVersionTuple} (h_matchRI : In32 w.matchRI) : osVersionTuple (tupleTrees "osVersionTuple" (osVersionFields w)) = some w := by
  have hd : ((osVersionFields w).map fun y => ascii y.1).Nodup := by
    simp only [osVersionFields, List.map_cons, List.map_nil]; decide
  unfold osVersionTuple
  rw [struct_fields (by simp [osVersionFields]) (by simp [osVersionFields]) (by decide)]
  simp only [Option.bind_eq_bind, Option.bind_some]
  rw [field_spec hd (s := hex32 w.matchRI) (v := w.matchRI) (by simp [osVersionFields]) (int32_num h_matchRI.1 h_matchRI.2),
    field_spec hd (s := hex64 w.match64) (v := w.match64.toNat) (by simp [osVersionFields]) (uint64_num _),
    field_spec hd (s := hex8 w.versionSI) (v := w.versionSI.toInt) (by simp [osVersionFields]) (int8_num _),
    field_spec hd (s := hex64 w.version64) (v := w.version64.toNat) (by simp [osVersionFields]) (uint64_num _)]
  rfl

def modelFields (w : ModelTuple) : List Field :=
  [("type64", hex64 w.type64, w.type64.toNat),
    ("matchRI", hex32 w.matchRI, w.matchRI),
    ("match64", hex64 w.match64, w.match64.toNat),
    ("model64", hex64 w.model64, w.model64.toNat)]

theorem reads_modelRow {w : ModelTuple} (h_matchRI : In32 w.matchRI) :
    Reads false (emitModelRow w) (tupleTrees "modelTuple" (modelFields w)) true := by
  have := reads_fields (name := "modelTuple") (fs := modelFields w) (by decide) (by simp [modelFields]) fun y hy => by
    simp only [modelFields, List.mem_cons, List.not_mem_nil, or_false] at hy
    rcases hy with rfl | rfl | rfl | rfl
    · exact field_ok (by decide) (num64 _)
    · exact field_ok (by decide) (num32 h_matchRI.1 h_matchRI.2)
    · exact field_ok (by decide) (num64 _)
    · exact field_ok (by decide) (num64 _)
  simp only [modelFields, List.map_cons, List.map_nil] at this
  exact this

theorem modelTuple_spec {w : ModelTuple} (h_matchRI : In32 w.matchRI) : modelTuple (tupleTrees "modelTuple" (modelFields w)) = some w := by
  have hd : ((modelFields w).map fun y => ascii y.1).Nodup := by
    simp only [modelFields, List.map_cons, List.map_nil]; decide
  unfold modelTuple
  rw [struct_fields (by simp [modelFields]) (by simp [modelFields]) (by decide)]
  simp only [Option.bind_eq_bind, Option.bind_some]
  rw [field_spec hd (s := hex64 w.type64) (v := w.type64.toNat) (by simp [modelFields]) (uint64_num _),
    field_spec hd (s := hex32 w.matchRI) (v := w.matchRI) (by simp [modelFields]) (int32_num h_matchRI.1 h_matchRI.2),
    field_spec hd (s := hex64 w.match64) (v := w.match64.toNat) (by simp [modelFields]) (uint64_num _),
    field_spec hd (s := hex64 w.model64) (v := w.model64.toNat) (by simp [modelFields]) (uint64_num _)]
  rfl

def deviceFields (w : DeviceTuple) : List Field :=
  [("type64", hex64 w.type64, w.type64.toNat),
    ("brand64", hex64 w.brand64, w.brand64.toNat),
    ("matchRI", hex32 w.matchRI, w.matchRI),
    ("match64", hex64 w.match64, w.match64.toNat),
    ("modelSI", hex32 w.modelSI, w.modelSI),
    ("models64", hex64 w.models64, w.models64.toNat)]

theorem reads_deviceRow {w : DeviceTuple} (h_matchRI : In32 w.matchRI) (h_modelSI : In32 w.modelSI) :
    Reads false (emitDeviceRow w) (tupleTrees "deviceTuple" (deviceFields w)) true := by
  have := reads_fields (name := "deviceTuple") (fs := deviceFields w) (by decide) (by simp [deviceFields]) fun y hy => by
    simp only [deviceFields, List.mem_cons, List.not_mem_nil, or_false] at hy
    rcases hy with rfl | rfl | rfl | rfl | rfl | rfl
    · exact field_ok (by decide) (num64 _)
    · exact field_ok (by decide) (num64 _)
    · exact field_ok (by decide) (num32 h_matchRI.1 h_matchRI.2)
    · exact field_ok (by decide) (num64 _)
    · exact field_ok (by decide) (num32 h_modelSI.1 h_modelSI.2)
    · exact field_ok (by decide) (num64 _)
  simp only [deviceFields, List.map_cons, List.map_nil] at this
  exact this

theorem deviceTuple_spec {w : DeviceTuple} (h_matchRI : In32 w.matchRI) (h_modelSI : In32 w.modelSI) : deviceTuple (tupleTrees "deviceTuple" (deviceFields w)) = some w := by
  have hd : ((deviceFields w).map fun y => ascii y.1).Nodup := by
    simp only [deviceFields, List.map_cons, List.map_nil]; decide
  unfold deviceTuple
  rw [struct_fields (by simp [deviceFields]) (by simp [deviceFields]) (by decide)]
  simp only [Option.bind_eq_bind, Option.bind_some]
  rw [field_spec hd (s := hex64 w.type64) (v := w.type64.toNat) (by simp [deviceFields]) (uint64_num _),
    field_spec hd (s := hex64 w.brand64) (v := w.brand64.toNat) (by simp [deviceFields]) (uint64_num _),
    field_spec hd (s := hex32 w.matchRI) (v := w.matchRI) (by simp [deviceFields]) (int32_num h_matchRI.1 h_matchRI.2),
    field_spec hd (s := hex64 w.match64) (v := w.match64.toNat) (by simp [deviceFields]) (uint64_num _),
    field_spec hd (s := hex32 w.modelSI) (v := w.modelSI) (by simp [deviceFields]) (int32_num h_modelSI.1 h_modelSI.2),
    field_spec hd (s := hex64 w.models64) (v := w.models64.toNat) (by simp [deviceFields]) (uint64_num _)]
  rfl

def clientFields (w : ClientRow) : List Field :=
  [("matchRI", hex32 w.1.matchRI, w.1.matchRI),
    ("match64", hex64 w.1.match64, w.1.match64.toNat),
    ("browser64", hex64 w.1.browser64, w.1.browser64.toNat),
    ("version64", hex64 w.1.version64, w.1.version64.toNat),
    ("browserVI", hex8 w.1.browserVI, w.1.browserVI.toInt),
    ("engine64", hex64 w.1.engine64, w.1.engine64.toNat),
    ("engineFI", hex32 w.1.engineFI, w.1.engineFI),
    ("url64", hex64 w.2.1, w.2.1.toNat),
    ("type64", hex64 w.2.2, w.2.2.toNat)]

theorem reads_clientRow {w : ClientRow} (h_matchRI : In32 w.1.matchRI) (h_browserVI : w.1.browserVI ≠ -128) (h_engineFI : In32 w.1.engineFI) :
    Reads false (emitClientRow w) (tupleTrees "clientTuple" (clientFields w)) true := by
  have := reads_fields (name := "clientTuple") (fs := clientFields w) (by decide) (by simp [clientFields]) fun y hy => by
    simp only [clientFields, List.mem_cons, List.not_mem_nil, or_false] at hy
    rcases hy with rfl | rfl | rfl | rfl | rfl | rfl | rfl | rfl | rfl
    · exact field_ok (by decide) (num32 h_matchRI.1 h_matchRI.2)
    · exact field_ok (by decide) (num64 _)
    · exact field_ok (by decide) (num64 _)
    · exact field_ok (by decide) (num64 _)
    · exact field_ok (by decide) (num8 h_browserVI)
    · exact field_ok (by decide) (num64 _)
    · exact field_ok (by decide) (num32 h_engineFI.1 h_engineFI.2)
    · exact field_ok (by decide) (num64 _)
    · exact field_ok (by decide) (num64 _)
  simp only [clientFields, List.map_cons, List.map_nil] at this
  exact this

theorem clientTuple_spec {w : ClientRow} (h_matchRI : In32 w.1.matchRI) (h_engineFI : In32 w.1.engineFI) : clientTuple (tupleTrees "clientTuple" (clientFields w)) = some w := by
  have hd : ((clientFields w).map fun y => ascii y.1).Nodup := by
    simp only [clientFields, List.map_cons, List.map_nil]; decide
  unfold clientTuple
  rw [struct_fields (by simp [clientFields]) (by simp [clientFields]) (by decide)]
  simp only [Option.bind_eq_bind, Option.bind_some]
  rw [field_spec hd (s := hex32 w.1.matchRI) (v := w.1.matchRI) (by simp [clientFields]) (int32_num h_matchRI.1 h_matchRI.2),
    field_spec hd (s := hex64 w.1.match64) (v := w.1.match64.toNat) (by simp [clientFields]) (uint64_num _),
    field_spec hd (s := hex64 w.1.browser64) (v := w.1.browser64.toNat) (by simp [clientFields]) (uint64_num _),
    field_spec hd (s := hex64 w.1.version64) (v := w.1.version64.toNat) (by simp [clientFields]) (uint64_num _),
    field_spec hd (s := hex8 w.1.browserVI) (v := w.1.browserVI.toInt) (by simp [clientFields]) (int8_num _),
    field_spec hd (s := hex64 w.1.engine64) (v := w.1.engine64.toNat) (by simp [clientFields]) (uint64_num _),
    field_spec hd (s := hex32 w.1.engineFI) (v := w.1.engineFI) (by simp [clientFields]) (int32_num h_engineFI.1 h_engineFI.2),
    field_spec hd (s := hex64 w.2.1) (v := w.2.1.toNat) (by simp [clientFields]) (uint64_num _),
    field_spec hd (s := hex64 w.2.2) (v := w.2.2.toNat) (by simp [clientFields]) (uint64_num _)]
  rfl

/-! ### Files -/

theorem value_spec {α : Type} {ds : List (String × List Tree)} (hd : (ds.map fun d => ascii d.1).Nodup) {name : String} {v : List Tree}
    (hm : (name, v) ∈ ds) (read : List Tree → Option α) : value (ds.map fun d => (ascii d.1, d.2)) name read = read v := by
  have : (ds.map fun d => (ascii d.1, d.2)).lookup (ascii name) = some v := by
    induction ds with
    | nil => cases hm
    | cons y ds ih =>
      rw [List.map_cons, List.nodup_cons] at hd
      rw [List.map_cons]
      rcases List.mem_cons.mp hm with rfl | hm
      · exact List.lookup_cons_self
      · have hne : (ascii name == ascii y.1) = false := by
          apply beq_false_of_ne
          intro e
          exact hd.1 (List.mem_map.mpr ⟨_, hm, e⟩)
        rw [List.lookup_cons, hne]
        exact ih hd.2 hm
  unfold value
  rw [this, Option.bind_some]

theorem rawOK_append {p q : Bytes} (hp : RawOK p) (hq : RawOK q) : RawOK (p ++ q) := by
  intro c hc
  rcases List.mem_append.mp hc with h | h
  · exact hp c h
  · exact hq c h

instance (p : Bytes) : Decidable (RawOK p) := inferInstanceAs (Decidable (∀ c ∈ p, _))
instance (p : Bytes) : Decidable (QuotedOK p) := inferInstanceAs (Decidable (∀ c ∈ p, _))
instance (p : Bytes) : Decidable (LineOK p) := inferInstanceAs (Decidable (∀ c ∈ p, _))

theorem reads_import {imp : Bytes} {ts : List Tok}
    (h : Run .idle false imp (.ident (ascii "import") :: .sym 40 :: (ts ++ [.sym 41, .sym 59])) .idle false) (hp : ts.all plain = true) :
    Reads false imp [.tok (.ident (ascii "import")), .group 40 (ts.map .tok), .tok (.sym 59)] false := by
  refine ⟨_, h, ?_⟩
  have := (Build.tok (t := .ident (ascii "import")) rfl).append ((Build.group (c := 40) (by simp) (Build.toks hp)).append (Build.tok (t := .sym 59) rfl))
  simpa [closer] using this

/-- The trees of a list of regexps. -/
def resTrees (ps : List Bytes) : List Tree :=
  [.group 91 [], .tok (.sym 42), .tok (.ident (ascii "regexp")), .tok (.sym 46), .tok (.ident (ascii "Regexp")),
    .group 123 (ps.flatMap fun p => patTrees p ++ [.tok (.sym 44)])]

/-- The trees of a table. -/
def tabTrees {α : Type} (type : String) (g : α → List Tree) (xs : List α) : List Tree :=
  [.group 91 [], .tok (.ident (ascii type)), .group 123 (xs.flatMap fun x => g x ++ [.tok (.sym 44)])]

/-- The trees of a buffer. -/
def byteTrees (b : Bytes) : List Tree := [.group 91 [], .tok (.ident (ascii "byte")), .group 123 (bufTrees b)]

/-- The trees of a table of files. -/
def arrTrees {α : Type} (type : String) (g : α → List Tree) (fs : List (Bytes × List α)) : List Tree :=
  [.group 91 [.tok (.int fs.length)], .group 91 [], .tok (.ident (ascii type)), .group 123 (filesTrees g fs)]

/-! Vendors -/

def vendorDecls (rows : List VendorTuple) (st : St) : List (String × List Tree) :=
  [("__vr_idx", tabTrees "vendorTuple" (fun w => tupleTrees "vendorTuple" (vendorFields w)) rows), ("__vr_re", resTrees st.re),
    ("__vr_buf", byteTrees st.buf.buf)]

theorem file_vendor {args : List Bytes} (ha : ∀ a ∈ args, LineOK a) (rows : List VendorTuple) (st : St) (hp : ∀ p ∈ st.re, RawOK p) :
    file (emitVendor args rows st) = some ((vendorDecls rows st).map fun d => (ascii d.1, d.2)) := by
  have hi := reads_import (imp := ascii "import (\n\"regexp\"\n)\n\n") (ts := [.str (ascii "regexp"), .sym 59]) (by decide) rfl
  have hb := (reads_table (name := "__vr_idx") (type := "vendorTuple") (by decide) (by decide) rows fun w _ => reads_vendorRow (w := w)).append
    ((reads_res (name := "__vr_re") (by decide) hp).append (reads_bytes (name := "__vr_buf") (by decide) st.buf.buf))
  have := file_spec ha hi (ds := vendorDecls rows st) (by simpa only [vendorDecls, tabTrees, resTrees, byteTrees, arrTrees, List.flatMap_cons, List.flatMap_nil, List.append_nil] using hb)
    (by simp only [vendorDecls, List.mem_cons, List.not_mem_nil, or_false]; rintro d (rfl | rfl | rfl) <;> rfl)
    (by simp only [vendorDecls, List.map_cons, List.map_nil]; decide)
  unfold emitVendor
  simpa only [List.append_assoc] using this

/-! Operating systems -/

def osDecls (rows : List OSTuple) (st : St) : List (String × List Tree) :=
  [("__or_os", tabTrees "osTuple" (fun w => tupleTrees "osTuple" (osFields w)) rows),
    ("__or_ov", tabTrees "osVersionTuple" (fun w => tupleTrees "osVersionTuple" (osVersionFields w)) st.ov),
    ("__or_re", resTrees (st.re.map fun p => ascii "(?i)" ++ p)), ("__or_buf", byteTrees st.buf.buf)]

theorem file_os {args : List Bytes} (ha : ∀ a ∈ args, LineOK a) (rows : List OSTuple) (st : St) (hp : ∀ p ∈ st.re, RawOK p)
    (hr : ∀ w ∈ rows, w.nameSI ≠ -128 ∧ In32 w.matchRI ∧ w.versionSI ≠ -128) (hv : ∀ w ∈ st.ov, In32 w.matchRI ∧ w.versionSI ≠ -128) :
    file (emitOS args rows st) = some ((osDecls rows st).map fun d => (ascii d.1, d.2)) := by
  have hi := reads_import (imp := ascii "import (\n\"regexp\"\n)\n\n") (ts := [.str (ascii "regexp"), .sym 59]) (by decide) rfl
  have hb := (reads_table (name := "__or_os") (type := "osTuple") (by decide) (by decide) rows
      fun w h => reads_osRow (hr w h).1 (hr w h).2.1 (hr w h).2.2).append
    ((reads_table (name := "__or_ov") (type := "osVersionTuple") (by decide) (by decide) st.ov fun w h => reads_osVersionRow (hv w h).1 (hv w h).2).append
    ((reads_res (name := "__or_re") (ps := st.re.map fun p => ascii "(?i)" ++ p) (by decide) (by
      intro q hq
      obtain ⟨p, h, rfl⟩ := List.mem_map.mp hq
      exact rawOK_append (by decide) (hp p h))).append (reads_bytes (name := "__or_buf") (by decide) st.buf.buf)))
  have := file_spec ha hi (ds := osDecls rows st) (by simpa only [osDecls, tabTrees, resTrees, byteTrees, arrTrees, List.flatMap_cons, List.flatMap_nil, List.append_nil] using hb)
    (by simp only [osDecls, List.mem_cons, List.not_mem_nil, or_false]; rintro d (rfl | rfl | rfl | rfl) <;> rfl)
    (by simp only [osDecls, List.map_cons, List.map_nil]; decide)
  unfold emitOS
  simpa only [List.append_assoc] using this

/-! Devices -/

def deviceDecls (files : List (Bytes × List DeviceTuple)) (st : St) : List (String × List Tree) :=
  [("__dr_idx", arrTrees "deviceTuple" (fun w => tupleTrees "deviceTuple" (deviceFields w)) files),
    ("__dr_dm", tabTrees "modelTuple" (fun w => tupleTrees "modelTuple" (modelFields w)) st.dm),
    ("__dr_re", resTrees (st.re.map fun p => ascii "(?i)" ++ p)), ("__dr_buf", byteTrees st.buf.buf)]

theorem file_device {args : List Bytes} (ha : ∀ a ∈ args, LineOK a) (files : List (Bytes × List DeviceTuple)) (st : St) (hl : ∀ f ∈ files, LineOK f.1)
    (hp : ∀ p ∈ st.re, RawOK p) (hr : ∀ f ∈ files, ∀ w ∈ f.2, In32 w.matchRI ∧ In32 w.modelSI) (hv : ∀ w ∈ st.dm, In32 w.matchRI) :
    file (emitDevice args files st) = some ((deviceDecls files st).map fun d => (ascii d.1, d.2)) := by
  have hi := reads_import (imp := ascii "import (\n\"regexp\"\n)\n\n") (ts := [.str (ascii "regexp"), .sym 59]) (by decide) rfl
  have hb := (reads_files (name := "__dr_idx") (type := "deviceTuple") (by decide) (by decide) files hl
      fun f hf w h => reads_deviceRow (hr f hf w h).1 (hr f hf w h).2).append
    ((reads_table (name := "__dr_dm") (type := "modelTuple") (by decide) (by decide) st.dm fun w h => reads_modelRow (hv w h)).append
    ((reads_res (name := "__dr_re") (ps := st.re.map fun p => ascii "(?i)" ++ p) (by decide) (by
      intro q hq
      obtain ⟨p, h, rfl⟩ := List.mem_map.mp hq
      exact rawOK_append (by decide) (hp p h))).append (reads_bytes (name := "__dr_buf") (by decide) st.buf.buf)))
  have := file_spec ha hi (ds := deviceDecls files st) (by simpa only [deviceDecls, tabTrees, resTrees, byteTrees, arrTrees, List.flatMap_cons, List.flatMap_nil, List.append_nil] using hb)
    (by simp only [deviceDecls, List.mem_cons, List.not_mem_nil, or_false]; rintro d (rfl | rfl | rfl | rfl) <;> rfl)
    (by simp only [deviceDecls, List.map_cons, List.map_nil]; decide)
  unfold emitDevice
  simpa only [List.append_assoc] using this

/-! Hints -/

def hintDecls (l : List (UInt64 × Entry64)) (st : St) : List (String × List Tree) :=
  [("__hr_idx", [.tok (.ident (ascii "map")), .group 91 [.tok (.ident (ascii "uint64"))], .tok (.ident (ascii "entry")), .tok (.sym 46),
      .tok (.ident (ascii "Entry64")), .group 123 (l.flatMap fun x => pairTrees x.1.toNat x.2.toNat ++ [.tok (.sym 44)])]),
    ("__hr_buf", byteTrees st.buf.buf)]

theorem reads_hint {files : List (Bytes × List (UInt64 × Entry64))} (hl : ∀ f ∈ files, LineOK f.1) :
    Reads false (ascii "__hr_idx = map[uint64]entry.Entry64{\n" ++
      (files.flatMap (fun f => ascii "// " ++ f.1 ++ ascii "\n" ++ f.2.flatMap (fun x => hex64 x.1 ++ ascii ":" ++ hex64 x.2 ++ ascii ",\n")) ++ ascii "}\n"))
      (decl "__hr_idx" [.tok (.ident (ascii "map")), .group 91 [.tok (.ident (ascii "uint64"))], .tok (.ident (ascii "entry")), .tok (.sym 46),
        .tok (.ident (ascii "Entry64")), .group 123 ((files.flatMap (·.2)).flatMap fun x => pairTrees x.1.toNat x.2.toNat ++ [.tok (.sym 44)])]) false := by
  have h1 : Run .idle false (ascii "__hr_idx = map[uint64]entry.Entry64{\n") [.ident (ascii "__hr_idx"), .sym 61, .ident (ascii "map"), .sym 91,
      .ident (ascii "uint64"), .sym 93, .ident (ascii "entry"), .sym 46, .ident (ascii "Entry64"), .sym 123] .idle false := by decide
  have h2 : Reads false (files.flatMap (fun f => ascii "// " ++ f.1 ++ ascii "\n" ++ f.2.flatMap (fun x => hex64 x.1 ++ ascii ":" ++ hex64 x.2 ++ ascii ",\n")))
      (files.flatMap fun f => f.2.flatMap fun x => pairTrees x.1.toNat x.2.toNat ++ [.tok (.sym 44)]) false :=
    Reads.flatMap files fun f hf => (reads_line (hl f hf)).append (Reads.flatMap f.2 fun x _ => reads_pair (num64 x.1) (num64 x.2))
  have h3 : Run .idle false (ascii "}\n") [.sym 125, .sym 59] .idle false := by decide
  obtain ⟨ts, r, b⟩ := h2
  refine ⟨_, h1.append (r.append h3), ?_⟩
  have b1 := Build.toks (ts := [.ident (ascii "__hr_idx"), .sym 61, .ident (ascii "map")]) rfl
  have b2 := Build.group (c := 91) (by simp) (Build.tok (t := .ident (ascii "uint64")) rfl)
  have b3 := Build.toks (ts := [.ident (ascii "entry"), .sym 46, .ident (ascii "Entry64")]) rfl
  have b4 := b1.append (b2.append (b3.append ((Build.group (c := 123) (by simp) b).append (Build.tok (t := .sym 59) rfl))))
  rw [List.flatMap_assoc]
  simpa [closer, decl] using b4

theorem file_hint {args : List Bytes} (ha : ∀ a ∈ args, LineOK a) (files : List (Bytes × List (UInt64 × Entry64))) (st : St)
    (hl : ∀ f ∈ files, LineOK f.1) :
    file (emitHint args files st) = some ((hintDecls (files.flatMap (·.2)) st).map fun d => (ascii d.1, d.2)) := by
  have hi := reads_import (imp := ascii "import (\n\"github.com/koykov/entry\"\n)\n\n") (ts := [.str (ascii "github.com/koykov/entry"), .sym 59]) (by decide) rfl
  have hb := (reads_hint hl).append (reads_bytes (name := "__hr_buf") (by decide) st.buf.buf)
  have := file_spec ha hi (ds := hintDecls (files.flatMap (·.2)) st)
    (by simpa only [hintDecls, tabTrees, resTrees, byteTrees, arrTrees, List.flatMap_cons, List.flatMap_nil, List.append_nil, List.append_assoc] using hb)
    (by simp only [hintDecls, List.mem_cons, List.not_mem_nil, or_false]; rintro d (rfl | rfl) <;> rfl)
    (by simp only [hintDecls, List.map_cons, List.map_nil]; decide)
  unfold emitHint
  simpa only [List.append_assoc] using this

/-! Clients -/

def clientDecls (files : List (Bytes × List ClientRow)) (o : ClientOut) : List (String × List Tree) :=
  [("__cr_idx", arrTrees "clientTuple" (fun w => tupleTrees "clientTuple" (clientFields w)) files),
    ("__cr_re", resTrees (o.st.re.map fun p => ascii "(?i)(?:^|[^A-Z0-9\\-_]|[^A-Z0-9\\-]_|sprd-|MZ-)(?:" ++ p ++ ascii ")")),
    ("__cr_ef", tabTrees "engineFn" efTrees o.st.ef),
    ("__cr_ev", [.tok (.ident (ascii "map")), .group 91 [.tok (.ident (ascii "entry")), .tok (.sym 46), .tok (.ident (ascii "Entry64"))],
      .tok (.ident (ascii "int32")), .group 123 (o.ev.flatMap fun x => pairTrees x.1.toNat x.2 ++ [.tok (.sym 44)])]),
    ("__cr_evre", resTrees (o.evre.map fun p => ascii "(?i)" ++ p)), ("__cr_buf", byteTrees o.st.buf.buf)]

theorem reads_ev {ev : List (Entry64 × Nat)} (hv : ∀ x ∈ ev, x.2 < 2 ^ 31) :
    Reads false (ascii "__cr_ev = map[entry.Entry64]int32{\n" ++
      (ev.flatMap (fun x => hex64 x.1 ++ ascii ":" ++ hex32 (x.2 : Int) ++ ascii ",\n") ++ ascii "}\n"))
      (decl "__cr_ev" [.tok (.ident (ascii "map")), .group 91 [.tok (.ident (ascii "entry")), .tok (.sym 46), .tok (.ident (ascii "Entry64"))],
        .tok (.ident (ascii "int32")), .group 123 (ev.flatMap fun x => pairTrees x.1.toNat x.2 ++ [.tok (.sym 44)])]) false := by
  have h1 : Run .idle false (ascii "__cr_ev = map[entry.Entry64]int32{\n") [.ident (ascii "__cr_ev"), .sym 61, .ident (ascii "map"), .sym 91,
      .ident (ascii "entry"), .sym 46, .ident (ascii "Entry64"), .sym 93, .ident (ascii "int32"), .sym 123] .idle false := by decide
  have h2 : Reads false (ev.flatMap (fun x => hex64 x.1 ++ ascii ":" ++ hex32 (x.2 : Int) ++ ascii ",\n"))
      (ev.flatMap fun x => pairTrees x.1.toNat x.2 ++ [.tok (.sym 44)]) false :=
    Reads.flatMap ev fun x hx => reads_pair (num64 x.1) (num32 (by omega) (by have := hv x hx; omega))
  have h3 : Run .idle false (ascii "}\n") [.sym 125, .sym 59] .idle false := by decide
  obtain ⟨ts, r, b⟩ := h2
  refine ⟨_, h1.append (r.append h3), ?_⟩
  have b1 := Build.toks (ts := [.ident (ascii "__cr_ev"), .sym 61, .ident (ascii "map")]) rfl
  have b2 := Build.group (c := 91) (by simp) (Build.toks (ts := [.ident (ascii "entry"), .sym 46, .ident (ascii "Entry64")]) rfl)
  have b3 := Build.tok (t := .ident (ascii "int32")) rfl
  have b4 := b1.append (b2.append (b3.append ((Build.group (c := 123) (by simp) b).append (Build.tok (t := .sym 59) rfl))))
  simpa [closer, decl] using b4

theorem file_client {args : List Bytes} (ha : ∀ a ∈ args, LineOK a) (files : List (Bytes × List ClientRow)) (o : ClientOut) (hl : ∀ f ∈ files, LineOK f.1)
    (hp : ∀ p ∈ o.st.re, RawOK p) (he : ∀ p ∈ o.evre, RawOK p) (hq : ∀ f ∈ o.st.ef, ∀ c ∈ f.cases, QuotedOK c.1)
    (hr : ∀ f ∈ files, ∀ w ∈ f.2, In32 w.1.matchRI ∧ w.1.browserVI ≠ -128 ∧ In32 w.1.engineFI) (hv : ∀ x ∈ o.ev, x.2 < 2 ^ 31) :
    file (emitClient args files o) = some ((clientDecls files o).map fun d => (ascii d.1, d.2)) := by
  have hi := reads_import (imp := ascii "import (\n\"github.com/koykov/entry\"\n\"regexp\"\n)\n\n")
    (ts := [.str (ascii "github.com/koykov/entry"), .sym 59, .str (ascii "regexp"), .sym 59]) (by decide) rfl
  have hb := (reads_files (name := "__cr_idx") (type := "clientTuple") (by decide) (by decide) files hl
      fun f hf w h => reads_clientRow (hr f hf w h).1 (hr f hf w h).2.1 (hr f hf w h).2.2).append
    ((reads_res (name := "__cr_re") (ps := o.st.re.map fun p => ascii "(?i)(?:^|[^A-Z0-9\\-_]|[^A-Z0-9\\-]_|sprd-|MZ-)(?:" ++ p ++ ascii ")") (by decide) (by
      intro q hq
      obtain ⟨p, h, rfl⟩ := List.mem_map.mp hq
      exact rawOK_append (rawOK_append (by decide) (hp p h)) (by decide))).append
    ((reads_table (name := "__cr_ef") (type := "engineFn") (by decide) (by decide) o.st.ef fun f h => reads_ef (hq f h)).append
    ((reads_ev hv).append
    ((reads_res (name := "__cr_evre") (ps := o.evre.map fun p => ascii "(?i)" ++ p) (by decide) (by
      intro q hq
      obtain ⟨p, h, rfl⟩ := List.mem_map.mp hq
      exact rawOK_append (by decide) (he p h))).append (reads_bytes (name := "__cr_buf") (by decide) o.st.buf.buf)))))
  have := file_spec ha hi (ds := clientDecls files o)
    (by simpa only [clientDecls, tabTrees, resTrees, byteTrees, arrTrees, List.flatMap_cons, List.flatMap_nil, List.append_nil, List.append_assoc] using hb)
    (by simp only [clientDecls, List.mem_cons, List.not_mem_nil, or_false]; rintro d (rfl | rfl | rfl | rfl | rfl | rfl) <;> rfl)
    (by simp only [clientDecls, List.map_cons, List.map_nil]; decide)
  unfold emitClient
  simpa only [List.append_assoc] using this

end Verif.Go

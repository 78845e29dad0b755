import Verif.Spec.Rules
/-
Well-formed rule tables: every offset and index is in range and every group index a rule reads exists in its regexp.
The conditions that only matter when a rule matches are relative to a user agent `u`, so that tables with some unsafe rules can be
described too (`WFfor T u`); `T.WF` is the absolute version.
-/
namespace Verif

/-- The offsets denote some text of the buffer. -/
def InBuf (buf : Bytes) (e : Entry64) : Prop := ∃ t, Text buf e t

/-- Group index -1 (= none) or an existing group; `i*2+1` must fit in int8. -/
def GroupIx (re : Re) (i : Int8) : Prop := i = -1 ∨ (0 ≤ i.toInt ∧ i.toInt ≤ re.ncap ∧ i.toInt ≤ 62)

/-- Range of a table. -/
def InTable {α : Type} (l : List α) (e : Entry64) : Prop := e.toNat % 2 ^ 32 ≤ e.toNat / 2 ^ 32 ∨ e.toNat % 2 ^ 32 ≤ l.length

/-- The regexp has a first group, and it participates in every match. -/
def MandatoryGroup (re : Re) : Prop := re.ncap ≥ 1 ∧ ∀ u m, re.find u = some m → ∃ lo : Int, 0 ≤ lo ∧ m[2]? = some lo

structure ClientRowWF (T : Tables) (v : ClientTuple) : Prop where
  re : 0 ≤ v.matchRI → ∃ re, T.crRe[v.matchRI.toNat]? = some re
  lit : v.matchRI < 0 → InBuf T.crBuf v.match64
  name : InBuf T.crBuf v.browser64
  ver : InBuf T.crBuf v.version64
  eng : InBuf T.crBuf v.engine64
  fn : v.engineFI ≠ -1 → 0 ≤ v.engineFI ∧ v.engineFI.toNat < T.crEf.length ∧ v.version64 = 0

/-- The version group of a client rule exists. -/
def ClientGroupWF (T : Tables) (v : ClientTuple) : Prop :=
  0 ≤ v.matchRI → v.version64 = 0 → ∀ re, T.crRe[v.matchRI.toNat]? = some re → GroupIx re v.browserVI

structure OSVersionRowWF (T : Tables) (u : Bytes) (v : OSVersionTuple) : Prop where
  re : 0 ≤ v.matchRI → ∃ re, T.orRe[v.matchRI.toNat]? = some re ∧ (re.isMatch u = true → GroupIx re v.versionSI)
  lit : v.matchRI < 0 → InBuf T.orBuf v.match64
  ver : InBuf T.orBuf v.version64

structure OSRowWF (T : Tables) (u : Bytes) (v : OSTuple) : Prop where
  re : 0 ≤ v.matchRI → ∃ re, T.orRe[v.matchRI.toNat]? = some re ∧ (re.isMatch u = true → GroupIx re v.nameSI ∧ GroupIx re v.versionSI)
  lit : v.matchRI < 0 → InBuf T.orBuf v.match64
  name : InBuf T.orBuf v.name64
  ver : InBuf T.orBuf v.version64
  vers : v.versions64 ≠ 0 → v.versions64.toNat / 2 ^ 32 < v.versions64.toNat % 2 ^ 32 ∧ v.versions64.toNat % 2 ^ 32 ≤ T.orOv.length

structure ModelRowWF (T : Tables) (v : ModelTuple) : Prop where
  re : 0 ≤ v.matchRI → ∃ re, T.drRe[v.matchRI.toNat]? = some re
  lit : v.matchRI < 0 → InBuf T.drBuf v.match64
  typ : InBuf T.drBuf v.type64
  model : InBuf T.drBuf v.model64
  tmpl : ∀ t, Text T.drBuf v.model64 t → t.getLast? ≠ some 36

structure DeviceRowWF (T : Tables) (v : DeviceTuple) : Prop where
  re : 0 ≤ v.matchRI → ∃ re, T.drRe[v.matchRI.toNat]? = some re
  neg : v.matchRI < 0 → v.matchRI = -1
  lit : v.matchRI < 0 → InBuf T.drBuf v.match64
  typ : InBuf T.drBuf v.type64
  brand : InBuf T.drBuf v.brand64
  model : v.modelSI ≠ -1 → 0 ≤ v.modelSI ∧ v.modelSI.toNat < T.drDm.length
  models : v.modelSI = -1 → InTable T.drDm v.models64

structure VendorRowWF (T : Tables) (v : VendorTuple) : Prop where
  brand : InBuf T.vrBuf v.brand64
  range : InTable T.vrRe v.range64

/-- The tables of operating systems, devices and vendors are well formed as far as user agent `u` is concerned. -/
structure WFdev (T : Tables) (u : Bytes) : Prop where
  orOs : T.orOs ≠ [] ∧ ∀ v ∈ T.orOs, OSRowWF T u v
  orOv : ∀ v ∈ T.orOv, OSVersionRowWF T u v
  drCat : ∀ i, i < 8 → ∃ rows, T.drIdx[i]? = some rows ∧ rows ≠ []
  dr : ∀ rows ∈ T.drIdx, ∀ v ∈ rows, DeviceRowWF T v
  drDm : ∀ v ∈ T.drDm, ModelRowWF T v
  vr : ∀ v ∈ T.vrIdx, VendorRowWF T v
  orRe : ∀ re ∈ T.orRe, re.WF
  drRe : ∀ re ∈ T.drRe, re.WF

/-- So are those of clients and hints, but for the version groups of client rules. -/
structure WFbase (T : Tables) (u : Bytes) : Prop extends WFdev T u where
  crCat : ∀ i, i < 7 → ∃ rows, T.crIdx[i]? = some rows ∧ rows ≠ []
  cr : ∀ rows ∈ T.crIdx, ∀ v ∈ rows, ClientRowWF T v
  crEf : ∀ f ∈ T.crEf, ∀ b, InBuf T.crBuf (f b)
  crEv : ∀ e i, T.crEv e = some i → ∃ re, T.crEvre[i]? = some re ∧ MandatoryGroup re
  hr : ∀ h e, T.hrIdx h = some e → InBuf T.hrBuf e
  crRe : ∀ re ∈ T.crRe, re.WF
  crEvre : ∀ re ∈ T.crEvre, re.WF

/-- The tables are well formed as far as user agent `u` is concerned. -/
structure WFfor (T : Tables) (u : Bytes) : Prop extends WFbase T u where
  /-- only needed of the rules that can be selected: the first to match in their category -/
  crGroup : ∀ rows ∈ T.crIdx, ∀ v, First (ClientMatch T u) rows v → ClientGroupWF T v

/-- The rule selected under filter `m`, if any, has its version group. -/
def ChosenWF (T : Tables) (m : ClientType) (u : Bytes) : Prop := ∀ t v, ClientChosen T m u t v → ClientGroupWF T v

theorem WFfor.chosen {T : Tables} {u : Bytes} (h : WFfor T u) (m : ClientType) : ChosenWF T m u := by
  rintro t v ⟨a, z, i, rows, -, -, -, h4, h5⟩
  exact h.crGroup rows (List.mem_of_getElem? h4) v h5

theorem WFfor.of {T : Tables} {u : Bytes} (crCat : ∀ i, i < 7 → ∃ rows, T.crIdx[i]? = some rows ∧ rows ≠ [])
    (cr : ∀ rows ∈ T.crIdx, ∀ v ∈ rows, ClientRowWF T v)
    (crGroup : ∀ rows ∈ T.crIdx, ∀ v, First (ClientMatch T u) rows v → ClientGroupWF T v)
    (crEf : ∀ f ∈ T.crEf, ∀ b, InBuf T.crBuf (f b))
    (crEv : ∀ e i, T.crEv e = some i → ∃ re, T.crEvre[i]? = some re ∧ MandatoryGroup re)
    (orOs : T.orOs ≠ [] ∧ ∀ v ∈ T.orOs, OSRowWF T u v) (orOv : ∀ v ∈ T.orOv, OSVersionRowWF T u v)
    (drCat : ∀ i, i < 8 → ∃ rows, T.drIdx[i]? = some rows ∧ rows ≠ [])
    (dr : ∀ rows ∈ T.drIdx, ∀ v ∈ rows, DeviceRowWF T v) (drDm : ∀ v ∈ T.drDm, ModelRowWF T v)
    (vr : ∀ v ∈ T.vrIdx, VendorRowWF T v) (hr : ∀ h e, T.hrIdx h = some e → InBuf T.hrBuf e)
    (crRe : ∀ re ∈ T.crRe, re.WF) (crEvre : ∀ re ∈ T.crEvre, re.WF) (orRe : ∀ re ∈ T.orRe, re.WF) (drRe : ∀ re ∈ T.drRe, re.WF) : WFfor T u :=
  ⟨⟨⟨orOs, orOv, drCat, dr, drDm, vr, orRe, drRe⟩, crCat, cr, crEf, crEv, hr, crRe, crEvre⟩, crGroup⟩

/-- Well-formed for every user agent. -/
def Tables.WF (T : Tables) : Prop := ∀ u, WFfor T u

end Verif

import Verif.Spec.WF
import Verif.Proofs.Shape
/-
A checker for well-formed tables and its soundness. It looks at numbers only: buffer lengths and the number of groups of each regexp.
-/
namespace Verif

def inBufB (n : Nat) (e : Entry64) : Bool := decide (e.toNat / 2 ^ 32 ≤ e.toNat % 2 ^ 32) && decide (e.toNat % 2 ^ 32 ≤ n)

theorem inBuf_of {buf : Bytes} {n : Nat} (hn : n ≤ buf.length) {e : Entry64} (h : inBufB n e = true) : InBuf buf e := by
  simp only [inBufB, Bool.and_eq_true, decide_eq_true_eq] at h
  have : sliceE? buf e = some ((buf.drop (e.toNat / 2 ^ 32)).take (e.toNat % 2 ^ 32 - e.toNat / 2 ^ 32)) := by
    unfold sliceE? slice?
    rw [decode_fst, decode_snd, if_pos ⟨h.1, by omega⟩]
  exact ⟨_, sliceE_iff.mp this⟩

theorem inBuf_bounds {buf : Bytes} {e : Entry64} (h : InBuf buf e) : inBufB buf.length e = true := by
  obtain ⟨t, a, z, rfl, h1, h2⟩ := h
  simp only [inBufB, Bool.and_eq_true, decide_eq_true_eq, h1, h2]
  exact ⟨by omega, by simp⟩

def groupIxB (ncap : Nat) (i : Int8) : Bool := decide (i = -1) || (decide (0 ≤ i.toInt) && decide (i.toInt ≤ ncap) && decide (i.toInt ≤ 62))

theorem groupIx_of {re : Re} {i : Int8} (h : groupIxB re.ncap i = true) : GroupIx re i := by
  simp only [groupIxB, Bool.or_eq_true, Bool.and_eq_true, decide_eq_true_eq] at h
  rcases h with h | ⟨⟨h1, h2⟩, h3⟩
  · exact .inl h
  · exact .inr ⟨h1, h2, h3⟩

def inTableB (n : Nat) (e : Entry64) : Bool := decide (e.toNat % 2 ^ 32 ≤ e.toNat / 2 ^ 32) || decide (e.toNat % 2 ^ 32 ≤ n)

theorem inTable_of {α : Type} {l : List α} {n : Nat} (hn : n ≤ l.length) {e : Entry64} (h : inTableB n e = true) : InTable l e := by
  simp only [inTableB, Bool.or_eq_true, decide_eq_true_eq] at h
  rcases h with h | h
  · exact .inl h
  · exact .inr (by omega)

/-- Regexp index `ri` with numbers of groups `caps`. -/
def riB (caps : List Nat) (ri : Int) (p : Nat → Bool) : Bool := match caps[ri.toNat]? with | some n => p n | none => false

theorem riB_of {res : List Re} {caps : List Nat} (hc : res.map (·.ncap) = caps) {ri : Int} {p : Nat → Bool} (h : riB caps ri p = true) :
    ∃ re, res[ri.toNat]? = some re ∧ p re.ncap = true := by
  unfold riB at h
  rw [← hc, List.getElem?_map] at h
  cases hr : res[ri.toNat]? with
  | none => simp [hr] at h
  | some re => simp [hr] at h; exact ⟨re, rfl, h⟩

def clientRowB (nbuf : Nat) (caps : List Nat) (nef : Nat) (v : ClientTuple) : Bool :=
  (if 0 ≤ v.matchRI then riB caps v.matchRI (fun n => decide (v.version64 ≠ 0) || groupIxB n v.browserVI) else inBufB nbuf v.match64) &&
  inBufB nbuf v.browser64 && inBufB nbuf v.version64 && inBufB nbuf v.engine64 &&
  (decide (v.engineFI = -1) || (decide (0 ≤ v.engineFI) && decide (v.engineFI.toNat < nef) && decide (v.version64 = 0)))

theorem clientRow_of {T : Tables} {nbuf nef : Nat} {caps : List Nat} (h1 : nbuf ≤ T.crBuf.length) (h2 : T.crRe.map (·.ncap) = caps)
    (h3 : nef ≤ T.crEf.length) {v : ClientTuple} (h : clientRowB nbuf caps nef v = true) : ClientRowWF T v ∧ ClientGroupWF T v := by
  simp only [clientRowB, Bool.and_eq_true] at h
  obtain ⟨⟨⟨⟨k1, k2⟩, k3⟩, k4⟩, k5⟩ := h
  refine ⟨⟨fun h0 => ?_, fun h0 => ?_, inBuf_of h1 k2, inBuf_of h1 k3, inBuf_of h1 k4, fun hne => ?_⟩, fun h0 hv re' e' => ?_⟩
  rotate_right
  · rw [if_pos h0] at k1
    obtain ⟨re, e1, e2⟩ := riB_of h2 k1
    rw [e1] at e'; cases e'
    simp only [Bool.or_eq_true, decide_eq_true_eq] at e2
    exact groupIx_of (e2.resolve_left fun h => h hv)
  · rw [if_pos h0] at k1
    obtain ⟨re, e1, -⟩ := riB_of h2 k1
    exact ⟨re, e1⟩
  · rw [if_neg (by omega)] at k1
    exact inBuf_of h1 k1
  · simp only [Bool.or_eq_true, Bool.and_eq_true, decide_eq_true_eq] at k5
    obtain ⟨⟨e1, e2⟩, e3⟩ := k5.resolve_left hne
    exact ⟨e1, by omega, e3⟩

def osVersionRowB (nbuf : Nat) (caps : List Nat) (v : OSVersionTuple) : Bool :=
  (if 0 ≤ v.matchRI then riB caps v.matchRI (fun n => groupIxB n v.versionSI) else inBufB nbuf v.match64) && inBufB nbuf v.version64

theorem osVersionRow_of {T : Tables} {nbuf : Nat} {caps : List Nat} (h1 : nbuf ≤ T.orBuf.length) (h2 : T.orRe.map (·.ncap) = caps)
    {v : OSVersionTuple} (h : osVersionRowB nbuf caps v = true) (u : Bytes) : OSVersionRowWF T u v := by
  simp only [osVersionRowB, Bool.and_eq_true] at h
  obtain ⟨k1, k2⟩ := h
  refine ⟨fun h0 => ?_, fun h0 => ?_, inBuf_of h1 k2⟩
  · rw [if_pos h0] at k1
    obtain ⟨re, e1, e2⟩ := riB_of h2 k1
    exact ⟨re, e1, fun _ => groupIx_of e2⟩
  · rw [if_neg (by omega)] at k1
    exact inBuf_of h1 k1

def osRowB (nbuf : Nat) (caps : List Nat) (nov : Nat) (v : OSTuple) : Bool :=
  (if 0 ≤ v.matchRI then riB caps v.matchRI (fun n => groupIxB n v.nameSI && groupIxB n v.versionSI) else inBufB nbuf v.match64) &&
  inBufB nbuf v.name64 && inBufB nbuf v.version64 &&
  (decide (v.versions64 = 0) || (decide (v.versions64.toNat / 2 ^ 32 < v.versions64.toNat % 2 ^ 32) && decide (v.versions64.toNat % 2 ^ 32 ≤ nov)))

theorem osRow_of {T : Tables} {nbuf nov : Nat} {caps : List Nat} (h1 : nbuf ≤ T.orBuf.length) (h2 : T.orRe.map (·.ncap) = caps)
    (h3 : nov ≤ T.orOv.length) {v : OSTuple} (h : osRowB nbuf caps nov v = true) (u : Bytes) : OSRowWF T u v := by
  simp only [osRowB, Bool.and_eq_true] at h
  obtain ⟨⟨⟨k1, k2⟩, k3⟩, k4⟩ := h
  refine ⟨fun h0 => ?_, fun h0 => ?_, inBuf_of h1 k2, inBuf_of h1 k3, fun hne => ?_⟩
  · rw [if_pos h0] at k1
    obtain ⟨re, e1, e2⟩ := riB_of h2 k1
    rw [Bool.and_eq_true] at e2
    exact ⟨re, e1, fun _ => ⟨groupIx_of e2.1, groupIx_of e2.2⟩⟩
  · rw [if_neg (by omega)] at k1
    exact inBuf_of h1 k1
  · simp only [Bool.or_eq_true, Bool.and_eq_true, decide_eq_true_eq] at k4
    obtain ⟨e1, e2⟩ := k4.resolve_left hne
    exact ⟨e1, by omega⟩

/-- `tmplB e`: the text at `e` does not end in '$'. -/
def modelRowB (nbuf nre : Nat) (tmplB : Entry64 → Bool) (v : ModelTuple) : Bool :=
  (if 0 ≤ v.matchRI then decide (v.matchRI.toNat < nre) else inBufB nbuf v.match64) &&
  inBufB nbuf v.type64 && inBufB nbuf v.model64 && tmplB v.model64

theorem modelRow_of {T : Tables} {nbuf nre : Nat} {tmplB : Entry64 → Bool} (h1 : nbuf ≤ T.drBuf.length) (h2 : nre ≤ T.drRe.length)
    (h3 : ∀ e t, tmplB e = true → Text T.drBuf e t → t.getLast? ≠ some 36) {v : ModelTuple} (h : modelRowB nbuf nre tmplB v = true) : ModelRowWF T v := by
  simp only [modelRowB, Bool.and_eq_true] at h
  obtain ⟨⟨⟨k1, k2⟩, k3⟩, k4⟩ := h
  refine ⟨fun h0 => ?_, fun h0 => ?_, inBuf_of h1 k2, inBuf_of h1 k3, fun t ht => h3 _ _ k4 ht⟩
  · rw [if_pos h0, decide_eq_true_eq] at k1
    exact ⟨T.drRe[v.matchRI.toNat], List.getElem?_eq_getElem (by omega)⟩
  · rw [if_neg (by omega)] at k1
    exact inBuf_of h1 k1

def deviceRowB (nbuf nre ndm : Nat) (v : DeviceTuple) : Bool :=
  (if 0 ≤ v.matchRI then decide (v.matchRI.toNat < nre) else decide (v.matchRI = -1) && inBufB nbuf v.match64) &&
  inBufB nbuf v.type64 && inBufB nbuf v.brand64 &&
  (if v.modelSI = -1 then inTableB ndm v.models64 else decide (0 ≤ v.modelSI) && decide (v.modelSI.toNat < ndm))

theorem deviceRow_of {T : Tables} {nbuf nre ndm : Nat} (h1 : nbuf ≤ T.drBuf.length) (h2 : nre ≤ T.drRe.length) (h3 : ndm ≤ T.drDm.length)
    {v : DeviceTuple} (h : deviceRowB nbuf nre ndm v = true) : DeviceRowWF T v := by
  simp only [deviceRowB, Bool.and_eq_true] at h
  obtain ⟨⟨⟨k1, k2⟩, k3⟩, k4⟩ := h
  refine ⟨fun h0 => ?_, fun h0 => ?_, fun h0 => ?_, inBuf_of h1 k2, inBuf_of h1 k3, fun hne => ?_, fun he => ?_⟩
  · rw [if_pos h0, decide_eq_true_eq] at k1
    exact ⟨T.drRe[v.matchRI.toNat], List.getElem?_eq_getElem (by omega)⟩
  · rw [if_neg (by omega), Bool.and_eq_true, decide_eq_true_eq] at k1
    exact k1.1
  · rw [if_neg (by omega), Bool.and_eq_true] at k1
    exact inBuf_of h1 k1.2
  · rw [if_neg hne, Bool.and_eq_true, decide_eq_true_eq, decide_eq_true_eq] at k4
    exact ⟨k4.1, by omega⟩
  · rw [if_pos he] at k4
    exact inTable_of h3 k4

def vendorRowB (nbuf nre : Nat) (v : VendorTuple) : Bool := inBufB nbuf v.brand64 && inTableB nre v.range64

theorem vendorRow_of {T : Tables} {nbuf nre : Nat} (h1 : nbuf ≤ T.vrBuf.length) (h2 : nre ≤ T.vrRe.length) {v : VendorTuple}
    (h : vendorRowB nbuf nre v = true) : VendorRowWF T v := by
  simp only [vendorRowB, Bool.and_eq_true] at h
  exact ⟨inBuf_of h1 h.1, inTable_of h2 h.2⟩

end Verif

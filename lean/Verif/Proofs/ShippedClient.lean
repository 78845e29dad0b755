import Verif.Data.Groups
import Verif.Proofs.Packed
import Verif.Spec.Shipped
import Verif.Proofs.Client
/-
The shipped client tables are well formed, but for eight regexps.
-/
set_option maxRecDepth 20000
namespace Verif.Data

/-- What is checked of a client rule: `nre`, `nef` and `len` are the sizes of `__cr_re`, `__cr_ef` and `__cr_buf`, `ncap` the group counts and
`bad` the positions of regexps not to be checked. -/
def clientRowB (nre nef len ncap : Nat) (bad : List Nat) (v : ClientTuple) : Bool :=
  (match v.matchRI with
    | .ofNat i => Nat.blt i nre && (!(Nat.beq v.version64.toNat 0) || groupB (digit ncap i) v.browserVI || bad.any (Nat.beq i))
    | .negSucc _ => inBufB len v.match64) &&
  inBufB len v.browser64 && inBufB len v.version64 && inBufB len v.engine64 &&
  (match v.engineFI with
    | .ofNat i => Nat.blt i nef && Nat.beq v.version64.toNat 0
    | .negSucc k => Nat.beq k 0)

/-- Positions of the regexps with no group whose rules read group 1. -/
def crBad : List Nat := [180, 265, 609, 673, 679, 803, 1187, 1235]

def crRowsB (rows : List ClientTuple) : Bool := rows.all (clientRowB 1350 32 17708 crNcapPacked crBad)

theorem crIdx0_ok : crRowsB crIdx0 = true := by decide +kernel
theorem crIdx1_ok : crRowsB crIdx1 = true := by decide +kernel
theorem crIdx2_ok : crRowsB crIdx2 = true := by decide +kernel
theorem crIdx3_ok : crRowsB crIdx3 = true := by decide +kernel
theorem crIdx4_ok : crRowsB crIdx4 = true := by decide +kernel
theorem crIdx5_ok : crRowsB crIdx5 = true := by decide +kernel
theorem crIdx6_ok : crRowsB crIdx6 = true := by decide +kernel

theorem crBuf_len : bufLen crBuf = 17708 := by decide +kernel
theorem crRe_len : crRe.length = 1350 := by decide +kernel
theorem crEf_len : crEf.length = 32 := by decide +kernel

theorem crNcap_packed : pack crNcap = crNcapPacked := by decide +kernel

theorem crRe_groups_0 : groupsB crRe_0 crNcap_0 = true := by decide +kernel
theorem crRe_groups_1 : groupsB crRe_1 crNcap_1 = true := by decide +kernel
theorem crRe_groups_2 : groupsB crRe_2 crNcap_2 = true := by decide +kernel
theorem crRe_groups_3 : groupsB crRe_3 crNcap_3 = true := by decide +kernel
theorem crRe_groups_4 : groupsB crRe_4 crNcap_4 = true := by decide +kernel
theorem crRe_groups_5 : groupsB crRe_5 crNcap_5 = true := by decide +kernel

theorem crRe_groups : groupsB crRe crNcap = true :=
  groupsB_append (groupsB_append (groupsB_append (groupsB_append (groupsB_append crRe_groups_0 crRe_groups_1) crRe_groups_2) crRe_groups_3)
    crRe_groups_4) crRe_groups_5


theorem crBad_patterns : (crBad.map fun i => crRe[i]?.map fun p => p.map fun c => (c.n, c.x)) =
    unsafePatterns.map fun p => some (p.map fun c => (c.n, c.x)) := by decide +kernel

theorem chunks_inj {a b : List Chunk} (h : (a.map fun c => (c.n, c.x)) = b.map fun c => (c.n, c.x)) : a = b := by
  induction a generalizing b with
  | nil => cases b with | nil => rfl | cons => cases h
  | cons c a ih =>
    cases b with
    | nil => cases h
    | cons d b =>
      simp only [List.map_cons, List.cons.injEq, Prod.mk.injEq] at h
      cases c; cases d
      obtain ⟨⟨rfl, rfl⟩, h⟩ := h
      rw [ih h]

/-- A regexp at one of the positions `crBad` is one of the eight. -/
theorem bad_unsafe {i : Nat} (h : i ∈ crBad) {p : List Chunk} (hp : crRe[i]? = some p) : p ∈ unsafePatterns := by
  have h1 : (crRe[i]?.map fun p => p.map fun c => (c.n, c.x)) ∈ crBad.map fun i => crRe[i]?.map fun p => p.map fun c => (c.n, c.x) :=
    List.mem_map_of_mem h
  rw [crBad_patterns, hp, Option.map_some, List.mem_map] at h1
  obtain ⟨q, hq, h1⟩ := h1
  rw [← chunks_inj (Option.some.inj h1)]
  exact hq

section
variable (L : RegexpLib)

theorem re_map {ps : List (List Chunk)} {i : Nat} {re : Re} (h : (ps.map fun p => L.compile (buf p))[i]? = some re) :
    ∃ p, ps[i]? = some p ∧ re = L.compile (buf p) := by
  rw [List.getElem?_map] at h
  cases hp : ps[i]? with
  | none => simp [hp] at h
  | some p => exact ⟨p, rfl, by simpa [hp] using h.symm⟩

theorem re_get {ps : List (List Chunk)} {i n : Nat} (hn : ps.length = n) (h : i < n) :
    ∃ p, ps[i]? = some p ∧ (ps.map fun p => L.compile (buf p))[i]? = some (L.compile (buf p)) := by
  subst hn
  exact ⟨ps[i], by simp [h], by simp [h]⟩

theorem clientRow_of {v : ClientTuple} (h : clientRowB 1350 32 17708 crNcapPacked crBad v = true) :
    ClientRowWF (shipped L.compile) v ∧ (ClientGroupWF (shipped L.compile) v ∨ UnsafeRule v) := by
  simp only [clientRowB, Bool.and_eq_true] at h
  obtain ⟨⟨⟨⟨h1, h2⟩, h3⟩, h4⟩, h5⟩ := h
  have inb : ∀ {e}, inBufB 17708 e = true → InBuf (shipped L.compile).crBuf e := fun h => inBuf_of crBuf_len h
  refine ⟨⟨fun h0 => ?_, fun h0 => ?_, inb h2, inb h3, inb h4, fun h0 => ?_⟩, ?_⟩
  · rw [ofNat_of_nonneg h0] at h1
    simp only [Bool.and_eq_true] at h1
    obtain ⟨p, hp, hre⟩ := re_get L crRe_len (blt_lt h1.1)
    exact ⟨L.compile (buf p), hre⟩
  · match hr : v.matchRI with
    | .ofNat n => rw [hr] at h0; exact absurd h0 (by simp)
    | .negSucc n => rw [hr] at h1; exact inb h1
  · match hr : v.engineFI with
    | .ofNat n =>
      rw [hr] at h5
      simp only [Bool.and_eq_true] at h5
      refine ⟨Int.natCast_nonneg n, ?_, ?_⟩
      · have : (shipped L.compile).crEf.length = 32 := by simp only [shipped, List.length_map]; exact crEf_len
        rw [this]; exact blt_lt h5.1
      · exact UInt64.toNat_inj.mp (Nat.eq_of_beq_eq_true h5.2)
    | .negSucc n =>
      rw [hr] at h5 h0
      have h5 := Nat.eq_of_beq_eq_true h5
      subst h5
      exact absurd rfl h0
  · by_cases h0 : 0 ≤ v.matchRI
    · rw [ofNat_of_nonneg h0] at h1
      simp only [Bool.and_eq_true, Bool.or_eq_true, Bool.not_eq_true'] at h1
      obtain ⟨hi, h1⟩ := h1
      obtain ⟨p, hp, hre⟩ := re_get L crRe_len (blt_lt hi)
      obtain (h1 | h1) | h1 := h1
      · left; intro _ hv; rw [hv] at h1; cases h1
      · left
        intro _ _ re hre'
        have hre' : (crRe.map fun p => L.compile (buf p))[v.matchRI.toNat]? = some re := hre'
        rw [hre] at hre'; cases hre'
        apply groupB_spec
        rw [L.ncap, groupsB_spec crRe_groups hp, crNcap_packed]
        exact h1
      · obtain ⟨j, hj, h1⟩ := List.any_eq_true.mp h1
        exact .inr ⟨h0, p, bad_unsafe (Nat.eq_of_beq_eq_true h1 ▸ hj) hp, hp⟩
    · exact .inl fun h => absurd h h0

theorem client_rows : ∀ rows ∈ (shipped L.compile).crIdx, ∀ v ∈ rows,
    ClientRowWF (shipped L.compile) v ∧ (ClientGroupWF (shipped L.compile) v ∨ UnsafeRule v) := by
  intro rows hr v hv
  refine clientRow_of L ?_
  have key : ∀ {rows}, crRowsB rows = true → v ∈ rows → clientRowB 1350 32 17708 crNcapPacked crBad v = true := fun h hv => List.all_eq_true.mp h v hv
  simp only [shipped, List.mem_cons, List.not_mem_nil, or_false] at hr
  rcases hr with rfl | rfl | rfl | rfl | rfl | rfl | rfl
  · exact key crIdx0_ok hv
  · exact key crIdx1_ok hv
  · exact key crIdx2_ok hv
  · exact key crIdx3_ok hv
  · exact key crIdx4_ok hv
  · exact key crIdx5_ok hv
  · exact key crIdx6_ok hv

/-! ### The rules with the eight regexps -/

/-- A rule with a regexp at one of the positions `bad` takes the version from group 1. -/
def badRowB (bad : List Nat) (v : ClientTuple) : Bool :=
  match v.matchRI with
  | .ofNat i => !(bad.any (Nat.beq i)) || (Nat.beq v.version64.toNat 0 && (match v.browserVI.toInt with | .ofNat k => Nat.beq k 1 | .negSucc _ => false))
  | .negSucc _ => true

def crBadRowsB (rows : List ClientTuple) : Bool := rows.all (badRowB crBad)

theorem crIdx_bad : [crIdx0, crIdx1, crIdx2, crIdx3, crIdx4, crIdx5, crIdx6].all crBadRowsB = true := by decide +kernel

/-- The eight regexps are at the positions `crBad` only. -/
def patEq : List Chunk → List Chunk → Bool
  | [], [] => true
  | a :: as, b :: bs => Nat.beq a.n b.n && Nat.beq a.x b.x && patEq as bs
  | _, _ => false

theorem patEq_refl (a : List Chunk) : patEq a a = true := by
  induction a with
  | nil => rfl
  | cons a as ih => simp [patEq, ih]

/-- Positions (from `n` on) at which one of the eight occurs. -/
def occurs : List (List Chunk) → List Bool
  | [] => []
  | p :: ps => unsafePatterns.any (patEq p) :: occurs ps

theorem crRe_occurs : (occurs crRe).zipIdx.filterMap (fun x => bif x.1 then some x.2 else none) = crBad := by decide +kernel

theorem unsafe_bad {i : Nat} {p : List Chunk} (hp : crRe[i]? = some p) (h : p ∈ unsafePatterns) : i ∈ crBad := by
  have e : occurs = List.map fun p => unsafePatterns.any (patEq p) := by
    funext ps
    induction ps with
    | nil => rfl
    | cons p ps ih => simp [occurs, ih]
  rw [← crRe_occurs, e, List.mem_filterMap]
  refine ⟨(true, i), ?_, rfl⟩
  rw [List.mem_zipIdx_iff_getElem?, List.getElem?_map, hp]
  simp only [Option.map_some, Option.some.injEq, List.any_eq_true]
  exact ⟨p, h, patEq_refl p⟩

theorem unsafe_groups : unsafePatterns.all (fun p => Nat.beq (Regexp.groups (buf p)) 0) = true := by decide +kernel

/-- An unsafe rule takes its version from group 1 and has no group. -/
theorem unsafe_row {rows : List ClientTuple} (hr : rows ∈ (shipped L.compile).crIdx) {v : ClientTuple} (hv : v ∈ rows) (h : UnsafeRule v) :
    v.version64 = 0 ∧ v.browserVI = 1 ∧ ∃ re, (shipped L.compile).crRe[v.matchRI.toNat]? = some re ∧ re.ncap = 0 ∧ re.WF := by
  obtain ⟨h0, p, hp, hi⟩ := h
  have hb := List.all_eq_true.mp (List.all_eq_true.mp crIdx_bad rows hr) v hv
  unfold badRowB at hb
  rw [ofNat_of_nonneg h0] at hb
  have hbad : crBad.any (Nat.beq v.matchRI.toNat) = true := List.any_eq_true.mpr ⟨_, unsafe_bad hi hp, Nat.beq_refl _⟩
  simp only [hbad, Bool.not_true, Bool.false_or, Bool.and_eq_true] at hb
  refine ⟨UInt64.toNat_inj.mp (Nat.eq_of_beq_eq_true hb.1), ?_, L.compile (buf p), ?_, ?_, L.wf _⟩
  · have h2 := hb.2
    split at h2
    · rename_i k hk
      have := Nat.eq_of_beq_eq_true h2
      subst this
      exact Int8.toInt_inj.mp (by rw [hk]; rfl)
    · cases h2
  · simp only [shipped, List.getElem?_map, hi, Option.map_some]
  · rw [L.ncap]
    exact Nat.eq_of_beq_eq_true (List.all_eq_true.mp unsafe_groups p hp)

/-- What is checked of an engine function. -/
def engineFnB (f : Compiler.EngineFn) : Bool := f.cases.all (fun x => inBufB 17708 x.2) && inBufB 17708 f.default

theorem crEf_ok : crEf.all engineFnB = true := by decide +kernel

theorem engine_fns : ∀ f ∈ (shipped L.compile).crEf, ∀ b, InBuf (shipped L.compile).crBuf (f b) := by
  intro f hf b
  simp only [shipped, List.mem_map] at hf
  obtain ⟨g, hg, rfl⟩ := hf
  have h := List.all_eq_true.mp crEf_ok g hg
  simp only [engineFnB, Bool.and_eq_true] at h
  refine inBuf_of crBuf_len ?_
  unfold Compiler.EngineFn.run
  cases hx : g.cases.find? (fun x => Compiler.strGe b x.1) with
  | none => exact h.2
  | some x => exact List.all_eq_true.mp h.1 x (List.mem_of_find?_eq_some hx)

theorem crEv_ok : crEv.all (fun x => Nat.blt x.2 20) = true := by decide +kernel
theorem crEvre_len : crEvre.length = 20 := by decide +kernel
theorem crEvre_ok : crEvre.all (fun p => Regexp.mandatory (buf p)) = true := by decide +kernel

theorem engine_versions : ∀ e i, (shipped L.compile).crEv e = some i →
    ∃ re, (shipped L.compile).crEvre[i]? = some re ∧ MandatoryGroup re := by
  intro e i h
  simp only [shipped, mapOf, Option.map_eq_some_iff] at h
  obtain ⟨x, hx, rfl⟩ := h
  have h := List.all_eq_true.mp crEv_ok x (List.mem_of_find?_eq_some hx)
  obtain ⟨p, hp, hre⟩ := re_get L crEvre_len (blt_lt h)
  exact ⟨_, hre, L.mandatory _ (List.all_eq_true.mp crEvre_ok p (List.mem_of_getElem? hp))⟩

theorem client_groups : ∀ i, i < 7 → ∃ rows, (shipped L.compile).crIdx[i]? = some rows ∧ rows ≠ [] := by
  have ne : ∀ {l : List ClientTuple}, l.isEmpty = false → l ≠ [] := fun h e => by subst e; cases h
  intro i hi
  match i, hi with
  | 0, _ => exact ⟨_, rfl, ne (by decide +kernel)⟩
  | 1, _ => exact ⟨_, rfl, ne (by decide +kernel)⟩
  | 2, _ => exact ⟨_, rfl, ne (by decide +kernel)⟩
  | 3, _ => exact ⟨_, rfl, ne (by decide +kernel)⟩
  | 4, _ => exact ⟨_, rfl, ne (by decide +kernel)⟩
  | 5, _ => exact ⟨_, rfl, ne (by decide +kernel)⟩
  | 6, _ => exact ⟨_, rfl, ne (by decide +kernel)⟩
  | n + 7, h => omega

theorem res_wf (ps : List (List Chunk)) : ∀ re ∈ ps.map (fun p => L.compile (buf p)), re.WF := by
  intro re h
  obtain ⟨p, -, rfl⟩ := List.mem_map.mp h
  exact L.wf _

end

end Verif.Data

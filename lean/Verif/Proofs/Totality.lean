import Verif.Proofs.DevOut
/-
On well-formed tables no stage of a getter panics.
-/
namespace Verif
variable {T : Tables} {u : Bytes}

theorem text_of_inBuf {b : Bytes} {e : Entry64} (h : InBuf b e) : ∃ t, sliceE? b e = some t := by
  obtain ⟨t, ht⟩ := h
  exact ⟨t, sliceE_iff.mpr ht⟩

theorem engRule_inBuf (hw : WFbase T u) {v : ClientTuple} (hv : ClientRowWF T v) {cv e : Entry64} (h : EngRule T u v cv e) : InBuf T.crBuf e := by
  unfold EngRule at h
  split at h
  · obtain ⟨raw, f, -, -, h1, rfl⟩ := h
    exact hw.crEf f (List.mem_of_getElem? h1) _
  · rw [h]; exact hv.eng

theorem Found.mem {α : Type} {p : α → Prop} {l : List α} {x : α} (h : Found p l (some x)) : x ∈ l := First.mem h |>.1

theorem engList_inBuf (hw : WFbase T u) {e1 e : Entry64} (h1 : InBuf T.crBuf e1) (h : EngList T u e1 e) : InBuf T.crBuf e := by
  unfold EngList at h
  split at h
  · obtain ⟨rows, r, h2, h3, rfl⟩ := h
    cases r with
    | none => exact inBuf_zero _
    | some v => exact (hw.cr rows (List.mem_of_getElem? h2) v h3.mem).name
  · rw [h]; exact h1

theorem engVer_inBuf (hw : WFbase T u) (hl : u.length < 2 ^ 32) (e : Entry64) : InBuf u (engVer T u e) := by
  unfold engVer
  split
  · exact inBuf_zero _
  · split
    · rename_i ri hri
      obtain ⟨re, h1, h2⟩ := hw.crEv _ _ hri
      rw [h1]
      dsimp only
      split
      · rename_i lo hi hlo hhi
        have hlo : (re.submatch u)[2]? = some lo := hlo
        have hhi : (re.submatch u)[3]? = some hi := hhi
        unfold Re.submatch at hlo hhi
        cases hf : re.find u with
        | none => rw [hf] at hlo; simp at hlo
        | some m =>
          rw [hf] at hlo hhi
          obtain ⟨lo', h3, h4⟩ := h2.2 u m hf
          obtain ⟨-, h5⟩ := hw.crEvre re (List.mem_of_getElem? h1) u m hf
          obtain ⟨k1, k2⟩ | ⟨a, t, z, k0, k1, k2⟩ := groupOK_split (h5 1 h2.1)
          · rw [h4] at k1; injection k1; omega
          · have k1 : ((some m).getD [])[2]? = some (a.length : Int) := k1
            have k2 : ((some m).getD [])[3]? = some ((a.length + t.length : Nat) : Int) := k2
            rw [hlo] at k1
            rw [hhi] at k2
            injection k1 with k1; injection k2 with k2
            subst k1 k2
            exact ⟨t, text_encode k0 hl⟩
      · exact inBuf_zero _
    · exact inBuf_zero _

/-- The client texts exist on well-formed tables. -/
theorem clientTexts_total (hw : WFbase T u) (hl : u.length < 2 ^ 32) {m : ClientType} (hg : ChosenWF T m u) {g : GC} (h : clientOut T m u = some g) (hint : UInt64) :
    browserText T hint g ≠ none ∧ browserVerText T u g ≠ none ∧ engineText T g ≠ none ∧ engineVerText u g ≠ none := by
  have key : InBuf T.crBuf g.clientName64 ∧ InBuf (if g.verConst then T.crBuf else u) g.clientVersion64 ∧ InBuf T.crBuf g.engineName64 ∧
      InBuf u g.engineVersion64 := by
    obtain ⟨-, rfl⟩ | ⟨t, i, v, h0, h1, h2, h3⟩ := clientOut_char h
    · exact ⟨inBuf_zero _, inBuf_zero _, inBuf_zero _, inBuf_zero _⟩
    · obtain ⟨a, z, i', rows, -, -, -, h4, h5⟩ := id h1
      have hv := hw.cr rows (List.mem_of_getElem? h4) v h5.mem.1
      have hc := clientVer_inBuf hw hv (hg t v h1) h5.mem.2 hl
      rw [← h3.ver] at hc
      refine ⟨by rw [h3.name]; exact hv.name, hc, ?_⟩
      have he := h3.eng
      split at he
      · obtain ⟨e1, k1, k2, k3, -⟩ := he
        exact ⟨engList_inBuf hw (engRule_inBuf hw hv k1) k2, by rw [k3]; exact engVer_inBuf hw hl _⟩
      · rw [he.1, he.2.1]
        exact ⟨inBuf_zero _, inBuf_zero _⟩
  obtain ⟨k1, k2, k3, k4⟩ := key
  obtain ⟨t1, k1⟩ := text_of_inBuf k1
  obtain ⟨t2, k2⟩ := text_of_inBuf k2
  obtain ⟨t3, k3⟩ := text_of_inBuf k3
  obtain ⟨t4, k4⟩ := text_of_inBuf k4
  refine ⟨?_, ?_, ?_, ?_⟩
  · unfold browserText
    have fin : ∀ eb : Entry64 × Bytes, (∃ t, sliceE? eb.2 eb.1 = some t) → (if eb.1 > 0 then sliceE? eb.2 eb.1 else some unknown) ≠ none := by
      rintro eb ⟨t, ht⟩
      rw [ht]
      split <;> simp
    refine fin _ ?_
    split
    · split
      · rename_i he hh
        exact text_of_inBuf (hw.hr _ _ hh)
      · exact ⟨[], rfl⟩
    · split
      · exact ⟨t1, k1⟩
      · exact ⟨[], rfl⟩
  · unfold browserVerText
    split
    · rw [k2]; simp
    · simp
  · unfold engineText
    split
    · simp
    · split
      · rw [k3]; simp
      · simp
  · unfold engineVerText
    split
    · rw [k4]; simp
    · simp

/-- Uncached, no getter of the OS or the device but GetModel can panic on well-formed tables. -/
theorem outAns_total_dev {H : Bytes → UInt64} {q : Req} (hw : WFdev T q.ua) (hl : q.ua.length < 2 ^ 32) {g : Getter} (hg : g ≠ .model)
    (hc : g.isC = false) : outAns T H q g ≠ none := by
  obtain ⟨go, ho⟩ := Option.ne_none_iff_exists'.mp (osOut_total hw)
  obtain ⟨gd, hd⟩ := Option.ne_none_iff_exists'.mp (devOut_total hw hl q.md)
  obtain ⟨o1, o2⟩ := osTexts_total hw hl ho
  have b := brandText_total hw hd
  cases g <;> simp_all [outAns, osAns, Getter.isC]

/-- Uncached, no getter but GetModel can panic on well-formed tables. -/
theorem outAns_total {H : Bytes → UInt64} {q : Req} (hw : WFbase T q.ua) (hl : q.ua.length < 2 ^ 32) (hgr : ChosenWF T q.mc q.ua) {g : Getter}
    (hg : g ≠ .model) : outAns T H q g ≠ none := by
  obtain ⟨gc, hc⟩ := Option.ne_none_iff_exists'.mp (clientOut_total hw hl hgr)
  obtain ⟨c1, c2, c3, c4⟩ := clientTexts_total hw hl hgr hc (q.hint H)
  cases hg' : g.isC
  · exact outAns_total_dev hw.toWFdev hl hg hg'
  · cases g <;> simp_all [outAns, Getter.isC]

end Verif

import Verif.Proofs.Template
import Verif.Proofs.Text
import Verif.Proofs.Version
import Verif.Model.Ctx
/-
Parsing and writing versions keeps texts well-formed.
-/
namespace Verif

open Regexp

theorem isDigit_ascii {c : UInt8} (h : isDigit c = true) : c.toNat < 0x80 := by
  unfold isDigit at h
  simp only [Bool.and_eq_true, decide_eq_true_eq, UInt8.le_iff_toNat_le] at h
  have := h.2
  have e : (57 : UInt8).toNat = 57 := rfl
  omega

theorem intDec_wf (i : Int) : WellFormed (intDec i) := by
  have h : ∀ n, ∀ c ∈ natDec n, c.toNat < 0x80 := fun n c hc => isDigit_ascii (List.all_eq_true.mp (natDec_spec n).2.1 c hc)
  refine .ascii fun c hc => ?_
  unfold intDec at hc
  split at hc
  · rcases List.mem_cons.mp hc with rfl | hc
    · decide
    · exact h _ c hc
  · exact h _ c hc

theorem setComp_suffix (v : Version) (i : Nat) (d : Int) : (v.setComp i d).suffix = v.suffix := by
  unfold Version.setComp
  split <;> rfl

theorem parseLoop_wf (n : Nat) : ∀ (i : Nat) (v : Version) (s : Bytes), WellFormed s →
    (Version.parseLoop n i v s).1.suffix = v.suffix ∧ WellFormed (Version.parseLoop n i v s).2.1 := by
  induction n with
  | zero => exact fun i v s h => ⟨rfl, h⟩
  | succ n ih =>
    intro i v s h
    unfold Version.parseLoop
    split
    · dsimp only
      split
      · exact ⟨rfl, h⟩
      · rename_i d _
        have hw : WellFormed (if (indexByte s 46).getD s.length < s.length then s.drop ((indexByte s 46).getD s.length + 1) else []) := by
          split
          · rename_i hlt
            cases hi : indexByte s 46 with
            | none => rw [hi] at hlt; exact absurd hlt (Nat.lt_irrefl _)
            | some p =>
              obtain ⟨z, e, -, -, -, hz⟩ := indexByte_some hi
              rw [e] at h
              show WellFormed (s.drop (p + 1))
              rw [hz]
              exact (h.split (by decide)).2
          · exact .nil
        have := ih (i + 1) (v.setComp i d) _ hw
        rw [setComp_suffix] at this
        exact this
    · exact ih _ _ _ h

/-- The suffix of a version read from a well-formed text is well-formed. -/
theorem parse_suffix_wf {s : Bytes} (h : WellFormed s) : WellFormed (({} : Version).parse s).1.suffix := by
  have hp := parseLoop_wf 4 0 {} s h
  unfold Version.parse
  rw [if_neg (by decide)]
  split
  · generalize Version.parseLoop 4 0 {} s = r at hp
    obtain ⟨v, s', b⟩ := r
    dsimp only at hp
    have hv : WellFormed v.suffix := by rw [hp.1]; exact .nil
    cases b with
    | true => exact hv
    | false =>
      dsimp only
      split
      · split
        · rename_i idx hi
          rw [List.findIdx?_eq_some_iff_getElem] at hi
          obtain ⟨hlt, hc, -⟩ := hi
          have e : s' = s'.take idx ++ s'[idx] :: s'.drop (idx + 1) := by rw [← List.drop_eq_getElem_cons hlt, List.take_append_drop]
          have hw := hp.2
          rw [e] at hw
          refine (hw.split ?_).2
          simp only [Bool.or_eq_true, beq_iff_eq] at hc
          rcases hc with hc | hc <;> rw [hc] <;> decide
        · exact hv
      · exact hv
  · exact .nil

/-- A version with a well-formed suffix is written as a well-formed text. -/
theorem string_wf {v : Version} (h : WellFormed v.suffix) : WellFormed v.string := by
  have a1 : ∀ {d : Bytes} (i : Int), WellFormed d → WellFormed (d ++ [46] ++ intDec i) := fun i hd =>
    (hd.append (.ascii (by decide))).append (intDec_wf i)
  have part : ∀ {p : Prop} [Decidable p] {d : Bytes} {ok : Bool} {i : Int}, WellFormed d →
      WellFormed (if p then (d ++ [46] ++ intDec i, true) else (d, ok)).1 := by
    intro p _ d ok i hd
    split
    · exact a1 i hd
    · exact hd
  unfold Version.string Version.write
  dsimp only
  have e0 : WellFormed (if v.major > 0 then (([] : Bytes) ++ intDec v.major.toInt, true) else ([], false)).1 := by
    split
    · exact WellFormed.nil.append (intDec_wf _)
    · exact .nil
  generalize (if v.major > 0 then (([] : Bytes) ++ intDec v.major.toInt, true) else ([], false)) = x0 at e0 ⊢
  obtain ⟨d0, k0⟩ := x0
  dsimp only at e0 ⊢
  have e1 := part (p := v.minor > 0 ∨ k0 = true) (ok := k0) (i := v.minor.toInt) e0
  generalize (if v.minor > 0 ∨ k0 = true then (d0 ++ [46] ++ intDec v.minor.toInt, true) else (d0, k0)) = x1 at e1 ⊢
  obtain ⟨d1, k1⟩ := x1
  dsimp only at e1 ⊢
  have e2 := part (p := v.patch > 0 ∨ k1 = true) (ok := k1) (i := v.patch.toInt) e1
  generalize (if v.patch > 0 ∨ k1 = true then (d1 ++ [46] ++ intDec v.patch.toInt, true) else (d1, k1)) = x2 at e2 ⊢
  obtain ⟨d2, k2⟩ := x2
  dsimp only at e2 ⊢
  have e3 := part (p := v.revision > 0 ∨ k2 = true) (ok := k2) (i := v.revision.toInt) e2
  generalize (if v.revision > 0 ∨ k2 = true then (d2 ++ [46] ++ intDec v.revision.toInt, true) else (d2, k2)) = x3 at e3 ⊢
  obtain ⟨d3, k3⟩ := x3
  dsimp only at e3 ⊢
  have e4 : WellFormed (if v.suffix.length > 0 then d3 ++ [32] ++ v.suffix else d3) := by
    split
    · exact (e3.append (.ascii (by decide))).append h
    · exact e3
  generalize (if v.suffix.length > 0 then d3 ++ [32] ++ v.suffix else d3) = d4 at e4 ⊢
  split
  · exact e4.append (.ascii (by decide))
  · exact e4

theorem clientTypeString_wf (t : ClientType) : WellFormed (clientTypeString t) := by
  unfold clientTypeString
  repeat' split
  all_goals exact .ascii (by decide)

theorem deviceTypeString_wf (t : DeviceType) : WellFormed (deviceTypeString t) := by
  unfold deviceTypeString
  repeat' split
  all_goals exact .ascii (by decide)

end Verif

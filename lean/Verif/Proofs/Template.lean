import Verif.Proofs.OS
/-
The model template expansion of device_parser.go:219-258 computes `Expands`.
-/
namespace Verif
variable {E : Prop}

theorem b2i_eq (d : UInt8) : b2i d = dollarGroup d := rfl

theorem Expands.prefix {re : Re} {u : Bytes} : ∀ (a : Bytes) {r t : Bytes}, (∀ b ∈ a, b ≠ 36) → Expands re u r t → Expands re u (a ++ r) (a ++ t)
  | [], _, _, _, h => h
  | b :: a, _, _, ha, h => .char (ha b (by simp)) (Expands.prefix a (fun b hb => ha b (by simp [hb])) h)

theorem expands_plain {re : Re} {u : Bytes} (a : Bytes) (ha : ∀ b ∈ a, b ≠ 36) : Expands re u a a := by
  simpa using Expands.prefix a ha (.nil (re := re) (u := u))

theorem indexByte_some {s : Bytes} {c : UInt8} {p : Nat} (h : indexByte s c = some p) :
    ∃ z, s = s.take p ++ c :: z ∧ p < s.length ∧ (∀ b ∈ s.take p, b ≠ c) ∧ s.drop p = c :: z ∧ s.drop (p + 1) = z := by
  unfold indexByte at h
  rw [List.findIdx?_eq_some_iff_getElem] at h
  obtain ⟨h1, h2, h3⟩ := h
  have h2 : s[p] = c := by simpa using h2
  have hd : s.drop p = c :: s.drop (p + 1) := by rw [List.drop_eq_getElem_cons h1, h2]
  refine ⟨s.drop (p + 1), ?_, h1, ?_, hd, rfl⟩
  · rw [← hd, List.take_append_drop]
  · intro b hb
    obtain ⟨i, hi, rfl⟩ := List.mem_iff_getElem.mp hb
    rw [List.getElem_take]
    have := h3 i (by simp at hi; omega)
    simpa using this

theorem indexByte_none' {s : Bytes} {c : UInt8} (h : indexByte s c = none) : ∀ b ∈ s, b ≠ c := by
  unfold indexByte at h
  rw [List.findIdx?_eq_none_iff] at h
  intro b hb
  simpa using h b hb

/-- `c` with `t` appended to the buffer by the writes `w`. -/
def Ctx.app (c : Ctx) (t : Bytes) (w : List BufOp) : Ctx := { c with buf := c.buf ++ t, writes := c.writes ++ w }

theorem Ctx.app_app (c : Ctx) (a b : Bytes) (v w : List BufOp) : (c.app a v).app b w = c.app (a ++ b) (v ++ w) := by simp [Ctx.app]
theorem Ctx.app_nil (c : Ctx) : c.app [] [] = c := by simp [Ctx.app]

/-- What the group lookup of the expansion loop finds. -/
theorem out_mneLoop {re : Re} {u raw : Bytes} (hE : E ∨ (re.WF ∧ raw.getLast? ≠ some 36)) :
    ∀ (fuel p : Nat) (c : Ctx), raw.length ≤ p + fuel → raw[p]? = some 36 →
      P.Out E (mneLoop raw (re.submatch u) u fuel p c) (fun _ c' => ∃ t w, Expands re u (raw.drop p) t ∧ c' = c.app t w) := by
  intro fuel
  induction fuel with
  | zero =>
    intro p c h1 h2
    rw [List.getElem?_eq_none (by omega)] at h2; cases h2
  | succ fuel ih =>
    intro p c hfuel hp
    have hlt : p < raw.length := by
      rcases Nat.lt_or_ge p raw.length with h | h
      · exact h
      · rw [List.getElem?_eq_none h] at hp; cases hp
    rw [mneLoop]
    refine .ofOption_bind ?_ fun d hd => ?_
    · intro hn
      refine hE.resolve_right fun ⟨_, h⟩ => h ?_
      rw [List.getElem?_eq_none_iff] at hn
      rw [List.getLast?_eq_getElem?]
      rwa [show raw.length - 1 = p by omega]
    have hlt1 : p + 1 < raw.length := by
      rcases Nat.lt_or_ge (p + 1) raw.length with h | h
      · exact h
      · rw [List.getElem?_eq_none h] at hd; cases hd
    have hdrop : raw.drop p = 36 :: d :: raw.drop (p + 2) := by
      rw [List.drop_eq_getElem_cons hlt, List.drop_eq_getElem_cons hlt1]
      rw [List.getElem?_eq_getElem hlt] at hp
      rw [List.getElem?_eq_getElem hlt1] at hd
      injection hp with hp
      injection hd with hd
      rw [hp, hd]
    dsimp only
    rw [b2i_eq]
    have cap : ∀ g, Captures re u (dollarGroup d) g → ∃ (a z : Bytes), u = a ++ g ++ z ∧ (re.submatch u)[2 * dollarGroup d]? = some (a.length : Int) ∧
        (re.submatch u)[2 * dollarGroup d + 1]? = some ((a.length + g.length : Nat) : Int) := by
      rintro g ⟨m, a, z, h1, h2, h3, h4⟩
      refine ⟨a, z, h2, ?_, ?_⟩ <;> unfold Re.submatch <;> rw [h1] <;> assumption
    split
    · rename_i hlen
      refine .ret ⟨[], [], ?_, (c.app_nil).symm⟩
      rw [hdrop]
      refine .stop fun g hg => ?_
      obtain ⟨a, z, -, -, h⟩ := cap g hg
      rw [List.getElem?_eq_none (by omega)] at h; cases h
    · rename_i hlen
      have hlo : dollarGroup d * 2 < (re.submatch u).length := by omega
      have hhi : dollarGroup d * 2 + 1 < (re.submatch u).length := by omega
      refine .ofOption_bind ?_ fun lo hlo' => ?_
      · intro hn; rw [List.getElem?_eq_getElem hlo] at hn; cases hn
      refine .ofOption_bind ?_ fun hi hhi' => ?_
      · intro hn; rw [List.getElem?_eq_getElem hhi] at hn; cases hn
      split
      · rename_i hneg
        refine .ret ⟨[], [], ?_, (c.app_nil).symm⟩
        rw [hdrop]
        refine .stop fun g hg => ?_
        obtain ⟨a, z, -, h3, h4⟩ := cap g hg
        rw [Nat.mul_comm] at h3 h4
        rw [hlo'] at h3; rw [hhi'] at h4
        injection h3; injection h4
        omega
      · rename_i hneg
        have hm : ∃ m, re.find u = some m ∧ re.submatch u = m := by
          unfold Re.submatch at hlo ⊢
          cases hf : re.find u with
          | none => rw [hf] at hlo; simp at hlo
          | some m => exact ⟨m, rfl, rfl⟩
        obtain ⟨m, hm, hsub⟩ := hm
        rw [hsub] at hlo' hhi' hlo hhi
        refine .ofOption_bind ?_ fun g hg => ?_
        · intro hn
          refine hE.resolve_right fun ⟨hw, _⟩ => ?_
          obtain ⟨hl, hgr⟩ := hw u m hm
          obtain ⟨lo', hi', e1, e2, h⟩ := hgr (dollarGroup d) (by omega)
          rw [Nat.mul_comm] at e1 e2
          rw [hlo'] at e1; rw [hhi'] at e2
          injection e1 with e1; injection e2 with e2
          unfold slice? at hn
          rw [if_pos (by omega)] at hn; cases hn
        have hcap : Captures re u (dollarGroup d) g := by
          obtain ⟨a, z, h1, h2, h3⟩ := slice_iff.mp hg
          refine ⟨m, a, z, hm, h1, ?_, ?_⟩
          · rw [Nat.mul_comm, hlo', ← h2]; congr 1; omega
          · rw [Nat.mul_comm, hhi', ← h3]; congr 1; omega
        refine .bind (mid := fun _ c' => c' = c.app g [.append g]) ⟨fun _ _ => rfl, fun h => by cases h⟩ ?_
        rintro _ _ rfl
        unfold indexByteAt
        cases hix : indexByte (raw.drop (p + 1)) 36 with
        | none =>
          have hno := indexByte_none' hix
          have hdd : raw.drop (p + 1) = d :: raw.drop (p + 2) := by
            rw [List.drop_eq_getElem_cons hlt1]
            rw [List.getElem?_eq_getElem hlt1] at hd
            injection hd with hd; rw [hd]
          rw [hdd] at hno
          refine ⟨fun _ _ => ⟨g ++ raw.drop (p + 2), [.append g] ++ [.append (raw.drop (p + 2))], ?_, (c.app_app g _ _ _).symm ▸ rfl⟩, fun h => by cases h⟩
          rw [hdrop]
          exact .group (hno d (by simp)) hcap (expands_plain _ fun b hb => hno b (by simp [hb]))
        | some q =>
          obtain ⟨z, e1, e2, e3, e4, e5⟩ := indexByte_some hix
          have hdd : raw.drop (p + 1) = d :: raw.drop (p + 2) := by
            rw [List.drop_eq_getElem_cons hlt1]
            rw [List.getElem?_eq_getElem hlt1] at hd
            injection hd with hd; rw [hd]
          simp only [Option.map_some]
          rw [List.drop_drop] at e4
          have hq : raw[q + (p + 1)]? = some 36 := by
            have : (raw.drop (p + 1 + q))[0]? = some 36 := by rw [e4]; rfl
            rw [List.getElem?_drop] at this
            rw [← this]; congr 1; omega
          rcases Nat.eq_zero_or_pos q with rfl | hq0
          · have hw : ¬ (0 + (p + 1) > p + 1 + 1) := by omega
            refine .bind (mid := fun _ c' => c' = c.app g [.append g]) ?_ ?_
            · unfold P.when
              rw [if_neg hw]
              exact .ret rfl
            · rintro _ _ rfl
              refine (ih (0 + (p + 1)) (c.app g [.append g]) (by omega) hq).mono ?_
              rintro _ c' ⟨t, w, ht, rfl⟩
              refine ⟨g ++ t, _, ?_, c.app_app g t _ _⟩
              have hd36 : d = 36 := by
                rw [show p + 1 + 0 = p + 1 from rfl, hdd] at e4
                injection e4
              subst hd36
              rw [hdrop]
              refine .dollar hcap ?_
              rw [Nat.zero_add, hdd] at ht
              exact ht
          · have hd36 : d ≠ 36 := by
              refine e3 d ?_
              rw [hdd]
              obtain ⟨k, rfl⟩ : ∃ k, q = k + 1 := ⟨q - 1, by omega⟩
              simp
            have happ : ∃ a, (∀ b ∈ a, b ≠ 36) ∧ raw.drop (p + 2) = a ++ raw.drop (q + (p + 1)) ∧
                a = (raw.drop (p + 1 + 1)).take (q + (p + 1) - (p + 1 + 1)) := by
              refine ⟨_, ?_, ?_, rfl⟩
              · intro b hb
                refine e3 b ?_
                rw [hdd]
                obtain ⟨k, rfl⟩ : ∃ k, q = k + 1 := ⟨q - 1, by omega⟩
                rw [List.take_succ_cons]
                refine List.mem_cons_of_mem _ ?_
                rwa [show k + 1 + (p + 1) - (p + 1 + 1) = k by omega] at hb
              · have : raw.drop (q + (p + 1)) = (raw.drop (p + 1 + 1)).drop (q + (p + 1) - (p + 1 + 1)) := by
                  rw [List.drop_drop]; congr 1; omega
                rw [this, List.take_append_drop]
            obtain ⟨a, ha, hra, hae⟩ := happ
            refine .bind (mid := fun _ c' => ∃ w, c' = (c.app g [.append g]).app a w) ?_ ?_
            · unfold P.when
              by_cases hw : q + (p + 1) > p + 1 + 1
              · rw [if_pos hw, ← hae]
                exact ⟨fun _ _ => ⟨[.append a], rfl⟩, fun h => by cases h⟩
              · rw [if_neg hw]
                have : a = [] := by
                  rw [hae, show q + (p + 1) - (p + 1 + 1) = 0 by omega, List.take_zero]
                refine .ret ⟨[], ?_⟩
                rw [this, Ctx.app_nil]
            · rintro _ _ ⟨v, rfl⟩
              refine (ih (q + (p + 1)) ((c.app g [.append g]).app a v) (by omega) hq).mono ?_
              rintro _ c' ⟨t, w, ht, rfl⟩
              refine ⟨g ++ (a ++ t), _, ?_, by rw [c.app_app, c.app_app, List.append_assoc]⟩
              rw [hdrop, hra]
              exact .group hd36 hcap (Expands.prefix a ha ht)

end Verif

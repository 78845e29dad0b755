import Verif.Model.Regexp
import Verif.Spec.Case
/-
Regexps that begin with `(?i)` do not see the case of ASCII letters: same matches, same captures.
-/
namespace Verif

theorem CaseEq.refl (u : Bytes) : CaseEq u u := rfl
theorem CaseEq.symm {u u' : Bytes} (h : CaseEq u u') : CaseEq u' u := Eq.symm h
theorem CaseEq.length {u u' : Bytes} (h : CaseEq u u') : u.length = u'.length := by simpa using congrArg List.length h
theorem CaseEq.drop {u u' : Bytes} (h : CaseEq u u') (n : Nat) : CaseEq (u.drop n) (u'.drop n) := by
  unfold CaseEq at *
  rw [List.map_drop, List.map_drop, h]
theorem CaseEq.nil_left {u : Bytes} (h : CaseEq [] u) : u = [] := List.length_eq_zero_iff.mp h.length.symm
theorem CaseEq.cons_left {a : UInt8} {l u : Bytes} (h : CaseEq (a :: l) u) : ∃ a' l', u = a' :: l' ∧ lowerByte a = lowerByte a' ∧ CaseEq l l' := by
  cases u with
  | nil => simp [CaseEq] at h
  | cons a' l' =>
    simp only [CaseEq, List.map_cons, List.cons.injEq] at h
    exact ⟨a', l', rfl, h⟩
theorem CaseEq.cons {a a' : UInt8} {l l' : Bytes} (h : lowerByte a = lowerByte a') (hl : CaseEq l l') : CaseEq (a :: l) (a' :: l') := by
  simp only [CaseEq, List.map_cons, List.cons.injEq]; exact ⟨h, hl⟩

theorem lower_cases (a a' : UInt8) (h : lowerByte a = lowerByte a') : a = a' ∨ (a.toNat < 128 ∧ a'.toNat < 128) := by
  have key : ∀ x y : Fin 256, lowerByte (UInt8.ofNat x.val) = lowerByte (UInt8.ofNat y.val) → x = y ∨ (x.val < 128 ∧ y.val < 128) := by decide +kernel
  have e : ∀ b : UInt8, UInt8.ofNat b.toNat = b := fun b => by simp
  have := key ⟨a.toNat, a.toNat_lt⟩ ⟨a'.toNat, a'.toNat_lt⟩ (by simpa only [e] using h)
  simpa [Fin.ext_iff, UInt8.toNat_inj] using this

namespace Regexp

/-- Runes that are ASCII letters in two cases, or equal. -/
def SameLetter (a a' : Nat) : Prop := ∃ b b' : UInt8, b.toNat = a ∧ b'.toNat = a' ∧ a < 128 ∧ a' < 128 ∧ lowerByte b = lowerByte b'

theorem folds_same {a a' : Nat} (h : SameLetter a a') : ∀ x ∈ folds a, x ∈ folds a' := by
  obtain ⟨b, b', rfl, rfl, h1, h2, h3⟩ := h
  have key : ∀ x y : Fin 128, lowerByte (UInt8.ofNat x.val) = lowerByte (UInt8.ofNat y.val) → ∀ z ∈ folds x.val, z ∈ folds y.val := by decide +kernel
  have e : ∀ b : UInt8, UInt8.ofNat b.toNat = b := fun b => by simp
  exact key ⟨b.toNat, h1⟩ ⟨b'.toNat, h2⟩ (by simpa only [e] using h3)

theorem SameLetter.symm {a a' : Nat} (h : SameLetter a a') : SameLetter a' a := by
  obtain ⟨b, b', h1, h2, h3, h4, h5⟩ := h
  exact ⟨b', b, h2, h1, h4, h3, h5.symm⟩

/-- Classes do not tell the two cases of a letter apart. -/
def Rx.CaseFree : Rx → Prop
  | .cls fold neg ranges => ∀ a a', SameLetter a a' → inClass fold neg ranges a = inClass fold neg ranges a'
  | .cat a b => a.CaseFree ∧ b.CaseFree
  | .alt a b => a.CaseFree ∧ b.CaseFree
  | .star _ a => a.CaseFree
  | .cap _ a => a.CaseFree
  | .empty => True
  | .bot => True
  | .eot => True

theorem inClass_fold (neg : Bool) (ranges : List (Nat × Nat)) (a a' : Nat) (h : SameLetter a a') : inClass true neg ranges a = inClass true neg ranges a' := by
  unfold inClass
  congr 1
  simp only [if_true]
  rw [Bool.eq_iff_iff, List.any_eq_true, List.any_eq_true]
  exact ⟨fun ⟨x, h1, h2⟩ => ⟨x, folds_same h x h1, h2⟩, fun ⟨x, h1, h2⟩ => ⟨x, folds_same h.symm x h1, h2⟩⟩

theorem inClass_dot (a a' : Nat) (h : SameLetter a a') : inClass false false dot a = inClass false false dot a' := by
  obtain ⟨b, b', rfl, rfl, h1, h2, h3⟩ := h
  have key : ∀ x y : Fin 128, lowerByte (UInt8.ofNat x.val) = lowerByte (UInt8.ofNat y.val) → inClass false false dot x.val = inClass false false dot y.val := by
    decide +kernel
  have e : ∀ b : UInt8, UInt8.ofNat b.toNat = b := fun b => by simp
  exact key ⟨b.toNat, h1⟩ ⟨b'.toNat, h2⟩ (by simpa only [e] using h3)

/-! ### Matching -/

theorem isCont_same {b b' : UInt8} (h : lowerByte b = lowerByte b') : isCont b = isCont b' := by
  rcases lower_cases b b' h with rfl | ⟨h1, h2⟩
  · rfl
  · unfold isCont
    have e1 : decide (128 ≤ b.toNat) = false := decide_eq_false (by omega)
    have e2 : decide (128 ≤ b'.toNat) = false := decide_eq_false (by omega)
    rw [e1, e2]; rfl

theorem cont_eq {b b' : UInt8} (h : lowerByte b = lowerByte b') (hc : isCont b = true) : b = b' := by
  rcases lower_cases b b' h with rfl | ⟨h1, h2⟩
  · rfl
  · unfold isCont at hc
    have e1 : decide (128 ≤ b.toNat) = false := decide_eq_false (by omega)
    rw [e1] at hc; cases hc

theorem decodeRune_same {a : UInt8} {l l' : Bytes} (h : CaseEq l l') : decodeRune (a :: l) = decodeRune (a :: l') := by
  unfold decodeRune
  dsimp only
  split
  · rfl
  split
  · cases l with
    | nil => rw [h.nil_left]
    | cons b l =>
      obtain ⟨b', l'', rfl, hb, hl⟩ := h.cons_left
      dsimp only
      rw [← isCont_same hb]
      split
      · rename_i hc; rw [← cont_eq hb hc]
      · rfl
  split
  · cases l with
    | nil => rw [h.nil_left]
    | cons b l =>
      obtain ⟨b', l'', rfl, hb, hl⟩ := h.cons_left
      cases l with
      | nil => rw [hl.nil_left]
      | cons c l =>
        obtain ⟨c', l3, rfl, hc, hl⟩ := hl.cons_left
        dsimp only
        rw [← isCont_same hb, ← isCont_same hc]
        cases e1 : isCont b with
        | false => simp
        | true =>
          cases e2 : isCont c with
          | false => simp
          | true => rw [cont_eq hb e1, cont_eq hc e2]
  split
  · cases l with
    | nil => rw [h.nil_left]
    | cons b l =>
      obtain ⟨b', l'', rfl, hb, hl⟩ := h.cons_left
      cases l with
      | nil => rw [hl.nil_left]
      | cons c l =>
        obtain ⟨c', l3, rfl, hc, hl⟩ := hl.cons_left
        cases l with
        | nil => rw [hl.nil_left]
        | cons d l =>
          obtain ⟨d', l4, rfl, hd, hl⟩ := hl.cons_left
          dsimp only
          rw [← isCont_same hb, ← isCont_same hc, ← isCont_same hd]
          cases e1 : isCont b with
          | false => simp
          | true =>
            cases e2 : isCont c with
            | false => simp
            | true =>
              cases e3 : isCont d with
              | false => simp
              | true => rw [cont_eq hb e1, cont_eq hc e2, cont_eq hd e3]
  · rfl

/-- Continuations that do not see the case. -/
def KRel (k k' : K) : Prop := ∀ pos rest rest' caps, CaseEq rest rest' → k pos rest caps = k' pos rest' caps

theorem starLoop_same (g : Bool) {m : K → K} (hm : ∀ k k', KRel k k' → KRel (m k) (m k')) {k k' : K} (hk : KRel k k') :
    ∀ fuel, KRel (starLoop g m k fuel) (starLoop g m k' fuel) := by
  intro fuel
  induction fuel with
  | zero => exact hk
  | succ n ih =>
    intro pos rest rest' caps h
    have h1 : m (fun pos' rest' caps' => if pos' = pos then none else starLoop g m k n pos' rest' caps') pos rest caps =
        m (fun pos' rest' caps' => if pos' = pos then none else starLoop g m k' n pos' rest' caps') pos rest' caps := by
      refine hm _ _ ?_ pos rest rest' caps h
      intro p r r' c hr
      dsimp only
      split
      · rfl
      · exact ih p r r' c hr
    simp only [starLoop, h1, hk pos rest rest' caps h]

theorem run_same (x : Rx) : x.CaseFree → ∀ k k', KRel k k' → KRel (x.run k) (x.run k') := by
  induction x with
  | empty => intro _ k k' hk; exact hk
  | cls fold neg ranges =>
    intro hx k k' hk pos rest rest' caps h
    cases rest with
    | nil => rw [h.nil_left]; rfl
    | cons a l =>
      obtain ⟨a', l', rfl, ha, hl⟩ := h.cons_left
      simp only [Rx.run]
      rcases lower_cases a a' ha with rfl | ⟨h1, h2⟩
      · rw [← decodeRune_same hl, hk _ _ _ _ hl, hk _ _ _ _ ((CaseEq.cons rfl hl).drop _)]
      · rw [if_pos h1, if_pos h2, hx _ _ ⟨a, a', rfl, rfl, h1, h2, ha⟩, hk _ _ _ _ hl]
  | bot =>
    intro _ k k' hk pos rest rest' caps h
    simp only [Rx.run, hk pos rest rest' caps h]
  | eot =>
    intro _ k k' hk pos rest rest' caps h
    have : rest.isEmpty = rest'.isEmpty := by
      cases rest with
      | nil => rw [h.nil_left]
      | cons a l => obtain ⟨a', l', rfl, -, -⟩ := h.cons_left; rfl
    simp only [Rx.run, hk pos rest rest' caps h, this]
  | cat a b iha ihb => intro hx k k' hk; exact iha hx.1 _ _ (ihb hx.2 _ _ hk)
  | alt a b iha ihb =>
    intro hx k k' hk pos rest rest' caps h
    simp only [Rx.run, iha hx.1 _ _ hk pos rest rest' caps h, ihb hx.2 _ _ hk pos rest rest' caps h]
  | star g a ih =>
    intro hx k k' hk pos rest rest' caps h
    simp only [Rx.run, ← h.length]
    exact starLoop_same g (ih hx) hk _ pos rest rest' caps h
  | cap i a ih =>
    intro hx k k' hk pos rest rest' caps h
    simp only [Rx.run]
    refine ih hx _ _ ?_ pos rest rest' caps h
    intro p r r' c hr
    exact hk p r r' _ hr

theorem search_same {x : Rx} (hx : x.CaseFree) : ∀ fuel pos rest rest', CaseEq rest rest' → search x fuel pos rest = search x fuel pos rest' := by
  have hr : ∀ pos rest rest', CaseEq rest rest' →
      (Rx.cap 0 x).run (fun _ _ caps => some caps) pos rest [] = (Rx.cap 0 x).run (fun _ _ caps => some caps) pos rest' [] :=
    by
    intro pos rest rest' h
    refine run_same (.cap 0 x) hx _ _ ?_ pos rest rest' [] h
    intro p r r' c hr
    rfl
  intro fuel
  induction fuel with
  | zero => exact hr
  | succ n ih =>
    intro pos rest rest' h
    simp only [search, hr pos rest rest' h]
    cases rest with
    | nil => rw [h.nil_left]
    | cons a l =>
      obtain ⟨a', l', rfl, ha, hl⟩ := h.cons_left
      have hd : (decodeRune (a :: l)).2 = (decodeRune (a' :: l')).2 := by
        rcases lower_cases a a' ha with rfl | ⟨h1, h2⟩
        · rw [decodeRune_same hl]
        · unfold decodeRune
          simp only [h1, h2, if_true]
      simp only [← hd, ih _ _ _ (h.drop _)]

/-! ### Parsing -/

theorem token_free {s : List Nat} {x : Rx} {rest : List Nat} (h : token true s = some (.atom x, rest)) : x.CaseFree := by
  unfold token at h
  split at h
  all_goals first
    | (cases h; done)
    | (cases h; trivial)
    | (cases h; exact inClass_fold _ _)
    | (cases h; exact inClass_dot)
    | (simp only [Option.map_eq_some_iff] at h; obtain ⟨y, -, h⟩ := h; cases h; exact inClass_fold _ _)
    | (split at h <;> cases h; exact inClass_fold _ _)

theorem catAll_free {l : List Rx} (h : ∀ x ∈ l, x.CaseFree) : (catAll l).CaseFree := by
  induction l with
  | nil => trivial
  | cons x l ih =>
    cases l with
    | nil => exact h x (by simp)
    | cons y l => exact ⟨h x (by simp), ih fun z hz => h z (List.mem_cons_of_mem _ hz)⟩

theorem altAll_free {l : List Rx} (h : ∀ x ∈ l, x.CaseFree) : (altAll l).CaseFree := by
  induction l with
  | nil => trivial
  | cons x l ih =>
    cases l with
    | nil => exact h x (by simp)
    | cons y l => exact ⟨h x (by simp), ih fun z hz => h z (List.mem_cons_of_mem _ hz)⟩

theorem optional_free {g : Bool} {x : Rx} (h : x.CaseFree) : (optional g x).CaseFree := by
  cases g <;> simp [optional, Rx.CaseFree, h]

theorem upTo_free {g : Bool} {x : Rx} (h : x.CaseFree) : ∀ n, (upTo g x n).CaseFree
  | 0 => trivial
  | 1 => optional_free h
  | n + 2 => optional_free ⟨h, upTo_free h (n + 1)⟩

theorem repeatRx_free {x : Rx} (h : x.CaseFree) (a : Nat) (b : Option Nat) (g : Bool) : (repeatRx x a b g).CaseFree := by
  refine catAll_free fun y hy => ?_
  rw [List.mem_append] at hy
  rcases hy with hy | hy
  · rw [List.eq_of_mem_replicate hy]; exact h
  · cases b with
    | none => simp only [List.mem_singleton] at hy; subst hy; exact h
    | some m =>
      dsimp only at hy
      split at hy
      · cases hy
      · simp only [List.mem_singleton] at hy; subst hy; exact upTo_free h _

def Frame.CaseFree (f : Frame) : Prop := (∀ x ∈ f.alts, x.CaseFree) ∧ ∀ x ∈ f.seq, x.CaseFree

theorem Frame.close_free {f : Frame} (h : f.CaseFree) : f.close.CaseFree := by
  have h1 : (altAll (catAll f.seq.reverse :: f.alts).reverse).CaseFree := by
    refine altAll_free fun x hx => ?_
    simp only [List.mem_reverse, List.mem_cons] at hx
    rcases hx with rfl | hx
    · exact catAll_free fun y hy => h.2 y (by simpa using hy)
    · exact h.1 x hx
  unfold Frame.close
  cases f.cap <;> exact h1

theorem parseLoop_free : ∀ fuel n f stack s x, Frame.CaseFree f → (∀ g ∈ stack, Frame.CaseFree g) → parseLoop true fuel n f stack s = some x → x.CaseFree := by
  intro fuel
  induction fuel with
  | zero => intro n f stack s x _ _ h; cases h
  | succ fuel ih =>
    intro n f stack s x hf hs h
    rw [parseLoop] at h
    split at h
    · split at h
      · cases h; exact Frame.close_free hf
      · cases h
    · split at h
      · cases h
      · rename_i y rest ht
        refine ih _ _ _ _ _ (And.intro (by exact hf.1) fun z hz => ?_) hs h
        rcases List.mem_cons.mp hz with rfl | hz
        · exact token_free ht
        · exact hf.2 z hz
      · refine ih _ _ _ _ _ ⟨by simp, by simp⟩ (fun g hg => ?_) h
        rcases List.mem_cons.mp hg with rfl | hg
        · exact hf
        · exact hs g hg
      · refine ih _ _ _ _ _ ⟨by simp, by simp⟩ (fun g hg => ?_) h
        rcases List.mem_cons.mp hg with rfl | hg
        · exact hf
        · exact hs g hg
      · split at h
        · cases h
        · rename_i g stack'
          have hg := hs g (by simp)
          refine ih _ _ _ _ _ (And.intro (by exact hg.1) fun z hz => ?_) (fun g hg => hs g (List.mem_cons_of_mem _ hg)) h
          rcases List.mem_cons.mp hz with rfl | hz
          · exact Frame.close_free hf
          · exact hg.2 z hz
      · refine ih _ _ _ _ _ ⟨fun z hz => ?_, by simp⟩ hs h
        rcases List.mem_cons.mp hz with rfl | hz
        · exact catAll_free fun y hy => hf.2 y (by simpa using hy)
        · exact hf.1 z hz
      · split at h
        · cases h
        · rename_i y seq hseq
          have h2 := hf.2
          rw [hseq] at h2
          refine ih _ _ _ _ _ (And.intro (by exact hf.1) fun z hz => ?_) hs h
          rcases List.mem_cons.mp hz with rfl | hz
          · exact repeatRx_free (h2 y (by simp)) _ _ _
          · exact h2 z (List.mem_cons_of_mem _ hz)

/-- The pattern asks for case-insensitive matching as a whole. -/
def CaseFlag (p : Bytes) : Prop := ∃ p', p = 40 :: 63 :: 105 :: 41 :: p'

theorem parse_free {p : Bytes} (hp : CaseFlag p) {x : Rx} (h : parse p = some x) : x.CaseFree := by
  obtain ⟨p', rfl⟩ := hp
  have hr : runes (40 :: 63 :: 105 :: 41 :: p' : Bytes).length (40 :: 63 :: 105 :: 41 :: p') = 40 :: 63 :: 105 :: 41 :: runes p'.length p' := rfl
  unfold parse at h
  rw [hr] at h
  exact parseLoop_free _ _ _ _ _ _ ⟨by simp, by simp⟩ (by simp) h

theorem compile_same {p : Bytes} (hp : CaseFlag p) {u u' : Bytes} (h : CaseEq u u') : (compile p).find u = (compile p).find u' := by
  unfold compile
  dsimp only
  cases hx : parse p with
  | none => rfl
  | some x =>
    dsimp only
    rw [h.length, search_same (parse_free hp hx) _ _ _ _ h]

end Regexp
end Verif

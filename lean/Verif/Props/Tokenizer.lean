import Verif.Model.Tokenizer
/-
Properties C37-C39: the tokenizer (tokenizer.go).
-/
namespace Verif
open Tokenizer

/-! ### Specification -/

/-- The delimiters, listed independently of the code's table. -/
def Spec.isDelim (c : UInt8) : Bool :=
  c == 32 || c == 9 || c == 10 || c == 13 || c == 47 || c == 40 || c == 41 || c == 59 || c == 44 || c == 46 || c == 91 || c == 93 ||
  c == 123 || c == 125 || c == 58 || c == 61 || c == 43 || c == 42

/-- Pieces between delimiters, empty pieces included. -/
def Spec.pieces : Bytes → List Bytes
  | [] => [[]]
  | c :: cs =>
    if Spec.isDelim c then [] :: Spec.pieces cs
    else match Spec.pieces cs with
      | [] => [[c]]
      | h :: t => (c :: h) :: t

/-- The tokens of a text: its non-empty pieces. -/
def Spec.tokens (s : Bytes) : List Bytes := (Spec.pieces s).filter (fun p => !p.isEmpty)

/-! ### Lemmas -/

theorem isDelimiter_eq (c : UInt8) (h : c ≠ 255) : isDelimiter c = some (Spec.isDelim c) := by
  have hlt : c.toNat < 255 := by
    have := c.toNat_lt
    have : c.toNat ≠ 255 := fun e => h (UInt8.toNat_inj.1 e)
    omega
  rw [isDelimiter, if_pos hlt]
  rw [show delimBytes = [32, 9, 10, 13, 47, 40, 41, 59, 44, 46, 91, 93, 123, 125, 58, 61, 43, 42] by decide]
  simp only [Spec.isDelim, List.contains_cons, List.contains_nil, Bool.or_false, Bool.or_assoc]

theorem isDelimiter_255 : isDelimiter 255 = none := by decide

theorem pieces_ne_nil (s : Bytes) : Spec.pieces s ≠ [] := by
  cases s with
  | nil => simp [Spec.pieces]
  | cons c cs =>
    rw [Spec.pieces]
    split
    · simp
    · split <;> simp

theorem tokens_delim (c : UInt8) (cs : Bytes) (h : Spec.isDelim c = true) : Spec.tokens (c :: cs) = Spec.tokens cs := by
  simp [Spec.tokens, Spec.pieces, h]

theorem pieces_run (t r : Bytes) (ht : ∀ c ∈ t, Spec.isDelim c = false) :
    ∃ h tl, Spec.pieces r = h :: tl ∧ Spec.pieces (t ++ r) = (t ++ h) :: tl := by
  obtain ⟨h, tl, hr⟩ := List.exists_cons_of_ne_nil (pieces_ne_nil r)
  refine ⟨h, tl, hr, ?_⟩
  induction t with
  | nil => simpa using hr
  | cons c cs ih =>
    rw [List.cons_append, Spec.pieces, if_neg (by rw [ht c (by simp)]; simp), ih (fun x hx => ht x (by simp [hx]))]
    rfl

theorem tokens_run (t r : Bytes) (h0 : t ≠ []) (ht : ∀ c ∈ t, Spec.isDelim c = false)
    (hr : r = [] ∨ ∃ c cs, r = c :: cs ∧ Spec.isDelim c = true) : Spec.tokens (t ++ r) = t :: Spec.tokens r := by
  obtain ⟨h, tl, h1, h2⟩ := pieces_run t r ht
  have hh : h = [] := by
    rcases hr with rfl | ⟨c, cs, rfl, hc⟩
    · simp [Spec.pieces] at h1; exact h1.1
    · rw [Spec.pieces, if_pos hc] at h1; simp at h1; exact h1.1
  subst hh
  have : t.isEmpty = false := by cases t with | nil => exact absurd rfl h0 | cons => rfl
  simp [Spec.tokens, h1, h2, this]

/-- The scan stops right after the run of matching bytes. -/
theorem scan_eq (want : Bool) (ua : Bytes) (pos : Nat) (h : (255 : UInt8) ∉ ua.drop pos) :
    ∃ run rest, ua.drop pos = run ++ rest ∧ (∀ c ∈ run, Spec.isDelim c = want) ∧
      (rest = [] ∨ ∃ c cs, rest = c :: cs ∧ Spec.isDelim c = !want) ∧
      scan want ua pos = some (pos + run.length) ∧ ua.drop (pos + run.length) = rest := by
  fun_induction scan want ua pos with
  | case1 pos hlt hn =>
    rw [List.drop_eq_getElem_cons hlt] at h
    simp only [List.mem_cons, not_or] at h
    rw [isDelimiter_eq _ (Ne.symm h.1)] at hn; cases hn
  | case2 pos hlt hd ih =>
    have hc := List.drop_eq_getElem_cons hlt
    rw [hc] at h
    simp only [List.mem_cons, not_or] at h
    rw [isDelimiter_eq _ (Ne.symm h.1)] at hd
    obtain ⟨run, rest, h1, h2, h3, h4, h5⟩ := ih h.2
    refine ⟨ua[pos] :: run, rest, by rw [hc, h1]; rfl, ?_, h3, ?_, ?_⟩
    · intro c hcm
      rcases List.mem_cons.1 hcm with rfl | hcm
      · exact Option.some.inj hd
      · exact h2 c hcm
    · rw [h4]; simp; omega
    · rw [← h5]; congr 1; simp; omega
  | case3 pos hlt d hd hne =>
    have hc := List.drop_eq_getElem_cons hlt
    rw [hc] at h
    simp only [List.mem_cons, not_or] at h
    rw [isDelimiter_eq _ (Ne.symm h.1)] at hd
    refine ⟨[], ua.drop pos, by simp, by simp, Or.inr ⟨_, _, hc, ?_⟩, by simp, by simp⟩
    cases hd
    revert hne
    cases Spec.isDelim ua[pos] <;> cases want <;> simp
  | case4 pos hlt =>
    refine ⟨[], [], ?_, by simp, Or.inl rfl, by simp, ?_⟩
    · rw [List.drop_eq_nil_of_le (by omega)]; rfl
    · exact List.drop_eq_nil_of_le (by simp; omega)

theorem tokens_delims (run rest : Bytes) (h : ∀ c ∈ run, Spec.isDelim c = true) : Spec.tokens (run ++ rest) = Spec.tokens rest := by
  induction run with
  | nil => rfl
  | cons c cs ih => rw [List.cons_append, tokens_delim _ _ (h c (by simp)), ih (fun x hx => h x (by simp [hx]))]

/-- One call, on an input without byte 0xFF: it returns the first token of what is left, or EOF. -/
theorem next_eq (ua : Bytes) (h : (255 : UInt8) ∉ ua) (pos : Nat) :
    ∃ p, next pos ua = some (p, (Spec.tokens (ua.drop pos)).head?) ∧ Spec.tokens (ua.drop p) = (Spec.tokens (ua.drop pos)).tail ∧
      pos ≤ p ∧ (pos ≤ ua.length → p ≤ ua.length) ∧
      (∀ t, (Spec.tokens (ua.drop pos)).head? = some t → pos < p) ∧
      ((Spec.tokens (ua.drop pos)).head? = none → ua.length ≤ p) := by
  have hd : ∀ k, (255 : UInt8) ∉ ua.drop k := fun k hm => h (List.mem_of_mem_drop hm)
  unfold next
  by_cases h1 : pos ≥ ua.length
  · rw [if_pos h1]
    have : ua.drop pos = [] := List.drop_eq_nil_of_le h1
    rw [this]
    exact ⟨pos, rfl, by rw [this]; rfl, Nat.le_refl _, id, (fun t ht => by cases ht), fun _ => h1⟩
  · rw [if_neg h1]
    obtain ⟨run, rest, e1, e2, e3, e4, e5⟩ := scan_eq true ua pos (hd pos)
    have hlen : pos + run.length + rest.length = ua.length := by
      have := congrArg List.length e1; simp at this; omega
    have htok : Spec.tokens (ua.drop pos) = Spec.tokens rest := by rw [e1]; exact tokens_delims run rest e2
    rw [htok, e4]
    simp only [Option.bind_eq_bind, Option.bind_some]
    by_cases h2 : pos + run.length ≥ ua.length
    · rw [if_pos h2]
      have hr : rest = [] := by
        rw [← e5]; exact List.drop_eq_nil_of_le h2
      subst hr
      refine ⟨_, rfl, by rw [e5]; rfl, by omega, (fun _ => by simp at hlen; omega), (fun t ht => by cases ht), fun _ => h2⟩
    · rw [if_neg h2]
      obtain ⟨t, r2, f1, f2, f3, f4, f5⟩ := scan_eq false ua (pos + run.length) (hd _)
      rw [f4]
      simp only [Option.bind_some]
      rw [e5] at f1
      have hne : t ≠ [] := by
        rintro rfl
        rcases e3 with hr | ⟨c, cs, hr, hc⟩
        · rw [hr] at hlen; simp at hlen; omega
        · rcases f3 with hr2 | ⟨c2, cs2, hr2, hc2⟩
          · rw [hr, hr2] at f1; simp at f1
          · rw [hr, hr2] at f1; simp at f1; rw [f1.1] at hc; rw [hc] at hc2; cases hc2
      have htr : Spec.tokens rest = t :: Spec.tokens r2 := by rw [f1]; exact tokens_run t r2 hne f2 f3
      have hl : 0 < t.length := List.length_pos_iff.2 hne
      have hl2 : t.length + r2.length = rest.length := by rw [f1]; simp
      refine ⟨pos + run.length + t.length, ?_, by rw [f5, htr]; rfl, by omega, (fun _ => by omega), (fun _ _ => by omega), ?_⟩
      · rw [htr, e5, f1]; simp
      · rw [htr]; intro hn; cases hn

theorem calls_eq (ua : Bytes) (h : (255 : UInt8) ∉ ua) (pos n : Nat) :
    ∃ p, calls ua pos n = some (p, (List.range n).map fun k => (Spec.tokens (ua.drop pos))[k]?) := by
  induction n generalizing pos with
  | zero => exact ⟨pos, rfl⟩
  | succ n ih =>
    obtain ⟨p, h1, h2, _⟩ := next_eq ua h pos
    obtain ⟨p', h3⟩ := ih p
    refine ⟨p', ?_⟩
    rw [calls, h1]
    simp only [Option.bind_eq_bind, Option.bind_some, h3, h2]
    rw [List.range_succ_eq_map, List.map_cons, List.map_map]
    have hm : (List.range n).map (fun k => (Spec.tokens (ua.drop pos)).tail[k]?) =
        (List.range n).map ((fun k => (Spec.tokens (ua.drop pos))[k]?) ∘ Nat.succ) := by
      apply List.map_congr_left
      intro k _
      simp [List.getElem?_tail]
    rw [hm, List.head?_eq_getElem?]

/-! ### C37 -/

/-- C37: on an input without byte 0xFF the k-th call of Next returns the k-th token (the k-th maximal delimiter-free run), and EOF
once they are exhausted, however many calls are made. -/
theorem C37_tokens (ua : Bytes) (h : (255 : UInt8) ∉ ua) (n : Nat) :
    ∃ p, calls ua 0 n = some (p, (List.range n).map fun k => (Spec.tokens ua)[k]?) := calls_eq ua h 0 n

/-- C37: the tokens are non-empty and free of delimiters. -/
theorem C37_tokens_shape (ua t : Bytes) (h : t ∈ Spec.tokens ua) : t ≠ [] ∧ ∀ c ∈ t, Spec.isDelim c = false := by
  simp only [Spec.tokens, List.mem_filter, Bool.not_eq_true', List.isEmpty_eq_false_iff] at h
  refine ⟨h.2, ?_⟩
  have : ∀ p ∈ Spec.pieces ua, ∀ c ∈ p, Spec.isDelim c = false := by
    clear h
    induction ua with
    | nil => intro p hp c hc; simp [Spec.pieces] at hp; subst hp; cases hc
    | cons x xs ih =>
      intro p hp c hc
      rw [Spec.pieces] at hp
      split at hp
      · rcases List.mem_cons.1 hp with rfl | hp
        · cases hc
        · exact ih p hp c hc
      · rename_i hx
        obtain ⟨h0, t0, e⟩ := List.exists_cons_of_ne_nil (pieces_ne_nil xs)
        rw [e] at hp ih
        rcases List.mem_cons.1 hp with rfl | hp
        · rcases List.mem_cons.1 hc with rfl | hc
          · simpa using hx
          · exact ih h0 (by simp) c hc
        · exact ih p (by simp [hp]) c hc
  exact this t h.1

/-- C37: nothing is lost: concatenating the tokens gives the input without its delimiters. -/
theorem C37_tokens_complete (ua : Bytes) : (Spec.tokens ua).flatten = ua.filter (fun c => !Spec.isDelim c) := by
  have hf : ∀ l : List Bytes, (l.filter (fun p => !p.isEmpty)).flatten = l.flatten := by
    intro l
    induction l with
    | nil => rfl
    | cons p ps ih =>
      cases p with
      | nil => simpa using ih
      | cons c cs => simp at ih ⊢; exact ih
  rw [Spec.tokens, hf]
  induction ua with
  | nil => rfl
  | cons x xs ih =>
    rw [Spec.pieces]
    by_cases hx : Spec.isDelim x = true
    · rw [if_pos hx, List.filter_cons_of_neg (by simp [hx])]; exact ih
    · rw [if_neg hx, List.filter_cons_of_pos (by simpa using hx), ← ih]
      obtain ⟨h0, t0, e⟩ := List.exists_cons_of_ne_nil (pieces_ne_nil xs)
      rw [e]; rfl

/-- C37: NextString agrees with Next. -/
theorem C37_nextString (pos : Nat) (ua : Bytes) :
    nextString pos ua = (next pos ua).map fun (p, r) => (p, r.getD [], r.isNone) := by
  unfold nextString
  cases next pos ua with
  | none => rfl
  | some x => obtain ⟨p, r⟩ := x; cases r <;> rfl

example : (255 : UInt8) ∉ ascii "Mozilla/5.0 (X11; Linux)" ∧
    Spec.tokens (ascii "Mozilla/5.0 (X11; Linux)") = [ascii "Mozilla", ascii "5", ascii "0", ascii "X11", ascii "Linux"] := by
  decide +kernel

/-! ### C38 -/

/-- C38 (what holds): no panic on inputs without byte 0xFF, from any position. -/
theorem C38_no_panic_partial (ua : Bytes) (h : (255 : UInt8) ∉ ua) (pos : Nat) : next pos ua ≠ none := by
  obtain ⟨p, h1, _⟩ := next_eq ua h pos
  rw [h1]; simp

/-- C38 refuted: an input that begins with byte 0xFF panics on the first call. -/
theorem C38_refuted (rest : Bytes) : next 0 (255 :: rest) = none := by
  unfold next
  rw [if_neg (by simp)]
  have : scan true (255 :: rest) 0 = none := by
    rw [scan, dif_pos (by simp)]
    simp [isDelimiter_255]
  rw [this]; rfl

theorem scan_hits (want : Bool) (ua : Bytes) (pos q : Nat) (hs : scan want ua pos = some q) :
    pos ≤ q ∧ (∀ k, pos ≤ k → k < q → ua[k]? ≠ some 255) ∧ (∀ h : q < ua.length, ua[q] ≠ 255) := by
  fun_induction scan want ua pos with
  | case1 pos hlt hn => cases hs
  | case2 pos hlt hd ih =>
    obtain ⟨a, b, c⟩ := ih hs
    refine ⟨by omega, fun k hk1 hk2 => ?_, c⟩
    by_cases hk : k = pos
    · subst hk
      rw [List.getElem?_eq_getElem hlt]
      intro he
      rw [Option.some.inj he, isDelimiter_255] at hd; cases hd
    · exact b k (by omega) hk2
  | case3 pos hlt d hd hne =>
    cases hs
    refine ⟨Nat.le_refl _, fun k h1 h2 => by omega, fun h he => ?_⟩
    rw [he, isDelimiter_255] at hd; cases hd
  | case4 pos hlt =>
    cases hs
    exact ⟨Nat.le_refl _, fun k h1 h2 => by omega, fun h => absurd h hlt⟩

theorem scan_stop (want : Bool) (ua : Bytes) (pos q : Nat) (hs : scan want ua pos = some q) (hq : q < ua.length) :
    ∃ d, isDelimiter ua[q] = some d ∧ d ≠ want := by
  fun_induction scan want ua pos with
  | case1 pos hlt hn => cases hs
  | case2 pos hlt hd ih => exact ih hs
  | case3 pos hlt d hd hne => cases hs; exact ⟨d, hd, hne⟩
  | case4 pos hlt => cases hs; omega

theorem next_hits (ua : Bytes) (pos p : Nat) (r : Option Bytes) (hn : next pos ua = some (p, r)) :
    pos ≤ p ∧ (∀ k, pos ≤ k → k < p → ua[k]? ≠ some 255) ∧ (pos < ua.length → pos < p) := by
  unfold next at hn
  by_cases h1 : pos ≥ ua.length
  · rw [if_pos h1] at hn; cases hn
    exact ⟨Nat.le_refl _, fun k a b => by omega, fun h => by omega⟩
  · rw [if_neg h1] at hn
    cases hs : scan true ua pos with
    | none => rw [hs] at hn; cases hn
    | some off =>
      obtain ⟨a, b, c⟩ := scan_hits _ _ _ _ hs
      rw [hs] at hn
      simp only [Option.bind_eq_bind, Option.bind_some] at hn
      by_cases h2 : off ≥ ua.length
      · rw [if_pos h2] at hn; cases hn
        exact ⟨a, b, fun _ => by omega⟩
      · rw [if_neg h2] at hn
        cases hs2 : scan false ua off with
        | none => rw [hs2] at hn; cases hn
        | some q =>
          rw [hs2] at hn
          simp only [Option.bind_some, Option.some.injEq, Prod.mk.injEq] at hn
          obtain ⟨a2, b2, c2⟩ := scan_hits _ _ _ _ hs2
          have hoff : off < q := by
            -- the byte at `off` ended the first scan, so it is not a delimiter
            rcases Nat.lt_or_ge off q with h | h
            · exact h
            · exfalso
              have hq : q = off := by omega
              subst hq
              obtain ⟨d, hd1, hd2⟩ := scan_stop true ua pos q hs (by omega)
              rw [scan, dif_pos (by omega), hd1] at hs2
              have : d = false := by cases d; rfl; exact absurd rfl hd2
              subst this
              simp only [if_true] at hs2
              have := (scan_hits _ _ _ _ hs2).1
              omega
          rw [← hn.1]
          refine ⟨by omega, fun k hk1 hk2 => ?_, fun _ => by omega⟩
          rcases Nat.lt_or_ge k off with h | h
          · exact b k hk1 h
          · exact b2 k h hk2

/-- C38 refuted, in full: every input that contains byte 0xFF makes some call panic. -/
theorem C38_refuted_every (ua : Bytes) (h : (255 : UInt8) ∈ ua) : ∃ n, calls ua 0 n = none := by
  obtain ⟨j, hj⟩ := List.mem_iff_getElem?.1 h
  have hjl : j < ua.length := (List.getElem?_eq_some_iff.1 hj).1
  have key : ∀ m pos, pos ≤ j → j - pos ≤ m → ∃ n, calls ua pos n = none := by
    intro m
    induction m with
    | zero =>
      intro pos h1 h2
      have : pos = j := by omega
      subst this
      refine ⟨1, ?_⟩
      rw [calls]
      cases hn : next pos ua with
      | none => rfl
      | some x =>
        obtain ⟨a, b, c⟩ := next_hits ua pos x.1 x.2 hn
        exact absurd hj (b pos (Nat.le_refl _) (c hjl))
    | succ m ih =>
      intro pos h1 h2
      cases hn : next pos ua with
      | none => exact ⟨1, by rw [calls, hn]; rfl⟩
      | some x =>
        obtain ⟨p, r⟩ := x
        obtain ⟨a, b, c⟩ := next_hits ua pos p r hn
        have hp : p ≤ j := by
          rcases Nat.lt_or_ge j p with h | h
          · exact absurd hj (b j h1 h)
          · exact h
        have := c (by omega)
        obtain ⟨n, hn2⟩ := ih p hp (by omega)
        refine ⟨n + 1, ?_⟩
        rw [calls, hn]
        simp [hn2]
  exact key j 0 (by omega) (by omega)

example : (255 : UInt8) ∈ ascii "Mozilla/5.0" ++ [255] := by decide

/-! ### C39 -/

/-- C39: a call that returns a token advances strictly, stays in range, and the token is the part of the input just passed; a call that
returns EOF leaves the position at (or past) the end, and then every number of further calls returns EOF; Reset restarts. -/
theorem C39_progress (ua : Bytes) (h : (255 : UInt8) ∉ ua) (pos : Nat) (hpos : pos ≤ ua.length) :
    ∃ p r, next pos ua = some (p, r) ∧ pos ≤ p ∧ p ≤ ua.length ∧
      (r ≠ none → pos < p) ∧
      (r = none → p = ua.length ∧ ∀ n, calls ua p n = some (p, List.replicate n none)) ∧
      reset p = 0 := by
  obtain ⟨p, h1, h2, h3, h4, h5, h6⟩ := next_eq ua h pos
  refine ⟨p, _, h1, h3, h4 hpos, ?_, ?_, rfl⟩
  · intro hr
    cases hh : (Spec.tokens (ua.drop pos)).head? with
    | none => exact absurd hh hr
    | some t => exact h5 t hh
  · intro hr
    have hp := h6 hr
    have := h4 hpos
    refine ⟨by omega, fun n => ?_⟩
    induction n with
    | zero => rfl
    | succ n ih =>
      rw [calls, next, if_pos hp]
      simp [ih, List.replicate_succ]

example : (255 : UInt8) ∉ ascii "a/b" ∧ 1 ≤ (ascii "a/b").length := by decide

end Verif

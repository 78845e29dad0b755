import Verif.Model.Regexp
import Verif.Spec.WF
/-
The modelled regexp library meets the documented contract of `FindSubmatchIndex`.
-/
namespace Verif.Regexp

theorem decodeRune_width (a : UInt8) (l : Bytes) : 1 ≤ (decodeRune (a :: l)).2 ∧ (decodeRune (a :: l)).2 ≤ (a :: l).length := by
  unfold decodeRune
  dsimp only
  repeat' split
  all_goals simp only [List.length_cons]
  all_goals omega

/-- Group `i` takes part in every match. -/
def Rx.must (i : Nat) : Rx → Bool
  | .cat a b => a.must i || b.must i
  | .alt a b => a.must i && b.must i
  | .cap j a => i == j || a.must i
  | _ => false

/-- What a successful run tells: it came to the continuation at a later position, with new captures in between. -/
structure Ran (b : Bytes) (k : K) (pos : Nat) (caps : Caps) (r : Caps) (must : Nat → Bool) : Prop where
  ran : ∃ pos' new, pos ≤ pos' ∧ pos' ≤ b.length ∧ k pos' (b.drop pos') (new ++ caps) = some r ∧
    (∀ x ∈ new, pos ≤ x.2.1 ∧ x.2.1 ≤ x.2.2 ∧ x.2.2 ≤ pos') ∧ ∀ i, must i = true → i ∈ new.map (·.1)

theorem Ran.here {b : Bytes} {k : K} {pos : Nat} {caps r : Caps} (h : pos ≤ b.length) (hk : k pos (b.drop pos) caps = some r) :
    Ran b k pos caps r (fun _ => false) :=
  ⟨pos, [], Nat.le_refl _, h, hk, by simp, by simp⟩

theorem Ran.weaken {b : Bytes} {k : K} {pos : Nat} {caps r : Caps} {m m' : Nat → Bool} (h : Ran b k pos caps r m) (hm : ∀ i, m' i = true → m i = true) :
    Ran b k pos caps r m' := by
  obtain ⟨p, n, h1, h2, h3, h4, h5⟩ := h
  exact ⟨p, n, h1, h2, h3, h4, fun i hi => h5 i (hm i hi)⟩

/-- Sequencing. -/
theorem Ran.seq {b : Bytes} {k k' : K} {pos : Nat} {caps r : Caps} {m m' : Nat → Bool} (h : Ran b k' pos caps r m)
    (hk : ∀ pos' caps', pos ≤ pos' → pos' ≤ b.length → k' pos' (b.drop pos') caps' = some r → Ran b k pos' caps' r m') :
    Ran b k pos caps r (fun i => m i || m' i) := by
  obtain ⟨p, n, h1, h2, h3, h4, h5⟩ := h
  obtain ⟨p', n', g1, g2, g3, g4, g5⟩ := hk p _ h1 h2 h3
  refine ⟨p', n' ++ n, by omega, g2, by rw [List.append_assoc]; exact g3, ?_, ?_⟩
  · intro x hx
    rcases List.mem_append.mp hx with hx | hx
    · have := g4 x hx; omega
    · have := h4 x hx; omega
  · intro i hi
    rw [List.map_append, List.mem_append]
    rcases Bool.or_eq_true_iff.mp hi with hi | hi
    · exact .inr (h5 i hi)
    · exact .inl (g5 i hi)

theorem drop_cons {b : Bytes} {pos : Nat} {a : UInt8} {l : Bytes} (h : b.drop pos = a :: l) : pos < b.length ∧ l = b.drop (pos + 1) := by
  have h1 : pos < b.length := by
    refine Classical.byContradiction fun h' => ?_
    rw [List.drop_eq_nil_of_le (by omega)] at h; cases h
  refine ⟨h1, ?_⟩
  rw [List.drop_eq_getElem_cons h1] at h
  exact (List.cons.inj h).2.symm

theorem starLoop_ran {b : Bytes} {greedy : Bool} {m : K → K}
    (hm : ∀ (k : K) (pos : Nat) (caps r : Caps), pos ≤ b.length → m k pos (b.drop pos) caps = some r → Ran b k pos caps r (fun _ => false))
    (k : K) (fuel : Nat) : ∀ (pos : Nat) (caps r : Caps), pos ≤ b.length → starLoop greedy m k fuel pos (b.drop pos) caps = some r →
      Ran b k pos caps r (fun _ => false) := by
  induction fuel with
  | zero => intro pos caps r hp h; exact .here hp h
  | succ fuel ih =>
    intro pos caps r hp h
    have more : m (fun pos' rest' caps' => if pos' = pos then none else starLoop greedy m k fuel pos' rest' caps') pos (b.drop pos) caps = some r →
        Ran b k pos caps r (fun _ => false) := by
      intro h
      refine (hm _ pos caps r hp h).seq (m' := fun _ => false) fun pos' caps' h1 h2 h3 => ?_
      split at h3
      · cases h3
      · exact ih pos' caps' r h2 h3
    unfold starLoop at h
    dsimp only at h
    cases greedy with
    | true =>
      simp only [if_true] at h
      split at h
      · rename_i hx; cases h; exact more hx
      · exact .here hp h
    | false =>
      simp only [Bool.false_eq_true, if_false] at h
      split at h
      · rename_i hx; cases h; exact .here hp hx
      · exact more h

theorem run_ran (b : Bytes) (rx : Rx) : ∀ (k : K) (pos : Nat) (caps r : Caps), pos ≤ b.length → rx.run k pos (b.drop pos) caps = some r →
    Ran b k pos caps r (fun i => rx.must i) := by
  induction rx with
  | empty => intro k pos caps r hp h; exact .here hp h
  | cls fold neg ranges =>
    intro k pos caps r hp h
    unfold Rx.run at h
    dsimp only at h
    split at h
    · cases h
    · rename_i a l hd
      obtain ⟨h1, h2⟩ := drop_cons hd
      split at h
      · split at h
        · rw [h2] at h
          exact ⟨pos + 1, [], by omega, by omega, h, by simp, by simp [Rx.must]⟩
        · cases h
      · split at h
        · have hw := decodeRune_width a l
          rw [← hd] at h hw
          rw [List.drop_drop] at h
          have : (b.drop pos).length = b.length - pos := List.length_drop
          exact ⟨pos + (decodeRune (b.drop pos)).2, [], by omega, by omega, h, by simp, by simp [Rx.must]⟩
        · cases h
  | bot =>
    intro k pos caps r hp h
    unfold Rx.run at h
    split at h
    · exact .here hp h
    · cases h
  | eot =>
    intro k pos caps r hp h
    unfold Rx.run at h
    split at h
    · exact .here hp h
    · cases h
  | cat x y ihx ihy =>
    intro k pos caps r hp h
    exact (ihx (y.run k) pos caps r hp h).seq fun pos' caps' _ h2 h3 => ihy k pos' caps' r h2 h3
  | alt x y ihx ihy =>
    intro k pos caps r hp h
    unfold Rx.run at h
    split at h
    · rename_i hx; cases h
      exact (ihx k pos caps _ hp hx).weaken fun i hi => (Bool.and_eq_true_iff.mp hi).1
    · exact (ihy k pos caps r hp h).weaken fun i hi => (Bool.and_eq_true_iff.mp hi).2
  | star greedy x ih =>
    intro k pos caps r hp h
    exact (starLoop_ran (fun k pos caps r hp h => (ih k pos caps r hp h).weaken fun _ hi => by cases hi) k _ pos caps r hp h).weaken
      fun _ hi => by cases hi
  | cap j x ih =>
    intro k pos caps r hp h
    obtain ⟨p, n, h1, h2, h3, h4, h5⟩ := ih _ pos caps r hp h
    refine ⟨p, (j, pos, p) :: n, h1, h2, h3, ?_, ?_⟩
    · intro y hy
      rcases List.mem_cons.mp hy with rfl | hy
      · exact ⟨Nat.le_refl _, h1, Nat.le_refl _⟩
      · exact h4 y hy
    · intro i hi
      rw [List.map_cons, List.mem_cons]
      rcases Bool.or_eq_true_iff.mp hi with hi | hi
      · exact .inl (by simpa using hi)
      · exact .inr (h5 i hi)

/-- A result of `search`: group 0 exists, all groups are ranges of the text, and mandatory groups are there. -/
theorem search_ran (b : Bytes) (rx : Rx) (fuel : Nat) : ∀ (pos : Nat) (caps : Caps), pos ≤ b.length → search rx fuel pos (b.drop pos) = some caps →
    (∀ x ∈ caps, x.2.1 ≤ x.2.2 ∧ x.2.2 ≤ b.length) ∧ (∀ i, (i = 0 ∨ rx.must i = true) → i ∈ caps.map (·.1)) := by
  have base : ∀ (pos : Nat) (caps : Caps), pos ≤ b.length → (Rx.cap 0 rx).run (fun _ _ caps => some caps) pos (b.drop pos) [] = some caps →
      (∀ x ∈ caps, x.2.1 ≤ x.2.2 ∧ x.2.2 ≤ b.length) ∧ (∀ i, (i = 0 ∨ rx.must i = true) → i ∈ caps.map (·.1)) := by
    intro pos caps hp h
    obtain ⟨p, n, h1, h2, h3, h4, h5⟩ := run_ran b (.cap 0 rx) _ pos [] caps hp h
    rw [List.append_nil] at h3
    cases h3
    refine ⟨fun x hx => ?_, fun i hi => h5 i ?_⟩
    · have := h4 x hx; omega
    · rcases hi with rfl | hi
      · simp [Rx.must]
      · simp [Rx.must, hi]
  induction fuel with
  | zero => exact base
  | succ fuel ih =>
    intro pos caps hp h
    unfold search at h
    split at h
    · rename_i hx; cases h; exact base pos _ hp hx
    · split at h
      · cases h
      · rename_i a l hd
        have hw := decodeRune_width a l
        dsimp only at h
        rw [← hd] at hw
        rw [List.drop_drop] at h
        have : (b.drop pos).length = b.length - pos := List.length_drop
        exact ih _ caps (by omega) h

theorem vector_length (caps : Caps) (n : Nat) : (vector caps n).length = 2 * (n + 1) := by
  have e : ∀ i, (vector.group caps i).length = 2 := by intro i; unfold vector.group; split <;> rfl
  induction n with
  | zero => exact e 0
  | succ n ih => rw [vector, List.length_append, ih, e]; omega

theorem vector_get (caps : Caps) (n i : Nat) (hi : i ≤ n) (j : Nat) (hj : j < 2) : (vector caps n)[2 * i + j]? = (vector.group caps i)[j]? := by
  induction n with
  | zero =>
    have : i = 0 := by omega
    subst this
    rw [vector]; congr 1; omega
  | succ n ih =>
    rw [vector]
    by_cases h : i ≤ n
    · rw [List.getElem?_append_left (by rw [vector_length]; omega)]
      exact ih h
    · have : i = n + 1 := by omega
      subst this
      rw [List.getElem?_append_right (by rw [vector_length]; omega), vector_length]
      congr 1; omega

theorem lookup_mem {caps : Caps} {i : Nat} {v : Nat × Nat} (h : caps.lookup i = some v) : (i, v) ∈ caps := by
  induction caps with
  | nil => cases h
  | cons x l ih =>
    obtain ⟨j, w⟩ := x
    rw [List.lookup_cons] at h
    split at h
    · rename_i hb
      cases h
      rw [eq_of_beq hb]
      exact .head _
    · exact .tail _ (ih h)

theorem lookup_some {caps : Caps} {i : Nat} (h : i ∈ caps.map (·.1)) : ∃ v, caps.lookup i = some v := by
  cases e : caps.lookup i with
  | some v => exact ⟨v, rfl⟩
  | none =>
    rw [List.lookup_eq_none_iff] at e
    obtain ⟨x, hx, rfl⟩ := List.mem_map.mp h
    have := e x hx
    simp at this

theorem compile_find {p b : Bytes} {m : List Int} (h : (compile p).find b = some m) :
    ∃ rx caps, parse p = some rx ∧ search rx b.length 0 b = some caps ∧ m = vector caps (groups p) := by
  have e : (compile p).find = (match parse p with
    | none => fun _ => none
    | some rx => fun b => (search rx b.length 0 b).map fun caps => vector caps (groups p)) := rfl
  rw [e] at h
  cases hp : parse p with
  | none => rw [hp] at h; cases h
  | some rx =>
    rw [hp] at h
    obtain ⟨caps, h1, h2⟩ := Option.map_eq_some_iff.mp h
    exact ⟨rx, caps, rfl, h1, h2.symm⟩

/-- The contract of `FindSubmatchIndex`. -/
theorem compile_wf (p : Bytes) : (compile p).WF := by
  intro b m h
  obtain ⟨rx, caps, hp, h1, rfl⟩ := compile_find h
  obtain ⟨h3, -⟩ := search_ran b rx b.length 0 caps (Nat.zero_le _) h1
  refine ⟨vector_length caps _, fun i hi => ?_⟩
  have g0 := vector_get caps (groups p) i hi 0 (by omega)
  have g1 := vector_get caps (groups p) i hi 1 (by omega)
  rw [Nat.add_zero] at g0
  rw [Re.GroupOK, g0, g1]
  unfold vector.group
  split
  · rename_i lo hi' hl
    have := h3 _ (lookup_mem hl)
    dsimp only at this
    exact ⟨lo, hi', rfl, rfl, .inr ⟨by omega, by omega, by omega⟩⟩
  · exact ⟨-1, -1, rfl, rfl, .inl ⟨rfl, rfl⟩⟩

/-- A pattern whose first group takes part in every match, by its syntax. -/
def mandatory (p : Bytes) : Bool := decide (1 ≤ groups p) && (match parse p with
  | some rx => rx.must 1
  | none => true)

theorem compile_mandatory {p : Bytes} (h : mandatory p = true) : MandatoryGroup (compile p) := by
  obtain ⟨h0, hm⟩ := Bool.and_eq_true_iff.mp h
  refine ⟨of_decide_eq_true h0, fun u m hf => ?_⟩
  obtain ⟨rx, caps, hp, h1, rfl⟩ := compile_find hf
  obtain ⟨h3, h4⟩ := search_ran u rx u.length 0 caps (Nat.zero_le _) h1
  rw [hp] at hm
  obtain ⟨⟨lo, hi⟩, hv⟩ := lookup_some (h4 1 (.inr hm))
  refine ⟨lo, by omega, ?_⟩
  have g0 := vector_get caps (groups p) 1 (of_decide_eq_true h0) 0 (by omega)
  rw [g0, vector.group, hv]
  rfl

end Verif.Regexp

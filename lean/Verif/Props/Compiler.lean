import Verif.Proofs.CompilerWF
import Verif.Props.Panics
import Verif.Proofs.DemoWF
/-
The rule compiler. C43: interning. C44: normalisation of regexps. C45: literal rules. C46: emitted tables denote the rules and are in range.
C47: group indices are not checked. C58: good rules give tables that cannot crash. C59: engine thresholds. C60: hints. C61: matching.
-/
namespace Verif.Compiler
open scoped List

/-! ### C43 -/

theorem internAll_spec (l : List Bytes) (b : Buf) (hb : BOK b) : BOK (internAll b l).2 ∧ (internAll b l).1.length = l.length ∧
    (internAll b l).2.buf.length ≤ b.buf.length + (l.map List.length).sum ∧
    (∀ k e, b.idx k = some e → (internAll b l).2.idx k = some e) ∧
    (∀ (i : Nat) t e, l[i]? = some t → (internAll b l).1[i]? = some e → (internAll b l).2.idx t = some e) := by
  induction l generalizing b with
  | nil => exact ⟨hb, rfl, by simp [internAll], fun _ _ h => h, by simp⟩
  | cons s ss ih =>
    obtain ⟨h1, _, h3, h4⟩ := Buf.add_spec hb s
    obtain ⟨k1, k2, k3, k4, k5⟩ := ih (b.add s).2 h1
    have hlen : (b.add s).2.buf.length ≤ b.buf.length + s.length := by
      unfold Buf.add
      cases b.idx s <;> simp
    refine ⟨k1, by simp [internAll, k2], ?_, fun k e h => k4 k e (h4 k e h), fun i t e ht he => ?_⟩
    · simp only [internAll, List.map_cons, List.sum_cons]
      omega
    · cases i with
      | zero =>
        simp only [internAll, List.getElem?_cons_zero, Option.some.injEq] at ht he
        subst ht; subst he
        exact k4 s _ h3
      | succ i =>
        simp only [internAll, List.getElem?_cons_succ] at ht he
        exact k5 i t e ht he

/-- C43: whatever strings are added in whatever order (less than 4 GiB together), each returned pair denotes its string in the final buffer,
and two pairs are equal exactly when the strings are. -/
theorem C43_intern (l : List Bytes) (h : (l.map List.length).sum < 2 ^ 32) :
    (internAll {} l).1.length = l.length ∧
    (∀ (i : Nat) t e, l[i]? = some t → (internAll {} l).1[i]? = some e → Text (internAll {} l).2.buf e t) ∧
    (∀ (i j : Nat) t t' e e', l[i]? = some t → l[j]? = some t' → (internAll {} l).1[i]? = some e → (internAll {} l).1[j]? = some e' →
      (t = t' ↔ e = e')) := by
  obtain ⟨h1, h2, h3, _, h5⟩ := internAll_spec l {} bok_nil
  have hs : (internAll {} l).2.buf.length < 2 ^ 32 := by
    have : ({} : Buf).buf.length = 0 := rfl
    omega
  refine ⟨h2, fun i t e ht he => h1.text t e (h5 i t e ht he) hs, fun i j t t' e e' ht ht' he he' => ⟨?_, ?_⟩⟩
  · rintro rfl
    have a := h5 i t e ht he
    have b := h5 j t e' ht' he'
    rw [a] at b
    exact Option.some.inj b
  · rintro rfl
    exact text_unique (h1.text t e (h5 i t e ht he) hs) (h1.text t' e (h5 j t' e ht' he') hs)

example : ([ascii "Chrome", ascii "", ascii "Blink", ascii "Chrome"].map List.length).sum < 2 ^ 32 := by decide
example : (internAll {} [ascii "Chrome", ascii "", ascii "Blink", ascii "Chrome"]).1 = [0x6, 0x600000006, 0x60000000b, 0x6] := by decide +kernel

/-! ### C44 -/

/-- C44: normalisation ends on every input without a panic; it only deletes characters; and no look-ahead `(?!…)` is left. -/
theorem C44_normalise (s : Bytes) : ∃ r, normalizeRegex s = some r ∧ r <+ s ∧ r.length ≤ s.length ∧ ¬ HasLookahead r := by
  obtain ⟨r, h1, h2, h3⟩ := normalizeRegex_ok s
  exact ⟨r, h1, h2, h2.length_le, h3⟩

/-- C44: if the look-ahead stage runs at all, not even the characters `(?!` are left before the final clean-up. -/
theorem C44_stage (s s1 s2 : Bytes) (h1 : stage1 s = some s1) (h2 : stage2 s1 = some s2) (h : HasLookahead s2) :
    ∃ s3, stage3 s2 = some s3 ∧ ¬ ascii "(?!" <:+: s3 ∧ normalizeRegex s = some (squeezeBars s3) := by
  obtain ⟨s3, e1, _, e3⟩ := cutAll_ok (esc := true) (lit := ascii "(?!") (by decide) s2
  have hg : guardRe (ascii "(?!") s2 = true := guardRe_iff.mpr h
  have h3 : stage3 s2 = some s3 := by
    unfold stage3
    rw [if_pos hg]
    exact e1
  exact ⟨s3, h3, e3, by simp [normalizeRegex, h1, h2, h3]⟩

/-- C44: a pattern without look-around and without `)||(` is left as it is. -/
theorem C44_unchanged {s : Bytes} (h1 : ¬ ascii "(?<!" <:+: s) (h2 : ¬ ascii "(?!" <:+: s) (h3 : ¬ ascii ")||(" <:+: s) :
    normalizeRegex s = some s := normalizeRegex_id h1 h2 h3

theorem scan_plain {esc : Bool} {p : UInt8} {i bo bc : Nat} {b c : Bytes} (h40 : 40 ∉ b) (h41 : 41 ∉ b) (h92 : b.getLast? ≠ some 92)
    (hp : b = [] → p ≠ 92) (hb : bo = bc + 1) : scan esc p i bo bc (b ++ 41 :: c) = some (i + b.length) := by
  induction b generalizing p i with
  | nil =>
    have hp := hp rfl
    simp only [List.nil_append, scan]
    simp [hp, hb]
  | cons x xs ih =>
    simp only [List.mem_cons, not_or] at h40 h41
    simp only [List.cons_append, scan]
    have g1 : ¬ (x = 40 ∧ (esc = true → p ≠ 92)) := fun h => h40.1 h.1.symm
    have g2 : ¬ (x = 41 ∧ p ≠ 92) := fun h => h41.1 h.1.symm
    simp only [g1, g2, if_false]
    rw [if_neg (by omega)]
    rw [ih h40.2 h41.2 ?_ ?_]
    · simp; omega
    · intro h
      cases xs with
      | nil => cases h
      | cons y ys => rw [List.getLast?_cons_cons] at h92; exact h92 h
    · rintro rfl
      intro h
      subst h
      exact h92 rfl

/-- C44, what is removed: a single look-ahead with a plain body (no brackets, no trailing backslash) after text `a` disappears as a whole,
and nothing else does. -/
theorem C44_removes {a b c : Bytes} (ha : ¬ ascii "(?<!" <:+: a ++ ascii "(?!" ++ b ++ ascii ")" ++ c)
    (hwa : ¬ ascii "(?!.*" <:+: a ++ ascii "(?!" ++ b ++ ascii ")" ++ c)
    (hfirst : indexSub (a ++ ascii "(?!" ++ b ++ ascii ")" ++ c) (ascii "(?!") = some a.length)
    (hb : b ≠ []) (h40 : 40 ∉ b) (h41 : 41 ∉ b) (h92 : b.getLast? ≠ some 92)
    (hleft : ¬ ascii "(?!" <:+: a ++ c) (hbars : ¬ ascii ")||(" <:+: a ++ c) :
    normalizeRegex (a ++ ascii "(?!" ++ b ++ ascii ")" ++ c) = some (a ++ c) := by
  have e1 : stage1 (a ++ ascii "(?!" ++ b ++ ascii ")" ++ c) = some (a ++ ascii "(?!" ++ b ++ ascii ")" ++ c) := by
    unfold stage1
    rw [if_neg fun h => ha (guardRe_infix h)]
  have e2 : stage2 (a ++ ascii "(?!" ++ b ++ ascii ")" ++ c) = some (a ++ ascii "(?!" ++ b ++ ascii ")" ++ c) := by
    unfold stage2
    rw [if_neg fun h => hwa (guardRe_infix h)]
  have hl : ascii "(?!" = [40, 63, 33] := by decide
  have hr : ascii ")" = [41] := by decide
  have e3 : stage3 (a ++ ascii "(?!" ++ b ++ ascii ")" ++ c) = some (a ++ c) := by
    unfold stage3
    rw [if_pos (guardRe_iff.mpr ⟨a, b, c, by rw [hr], hb, h41⟩)]
    unfold cutAll
    rw [hfirst]
    have hs : a ++ ascii "(?!" ++ b ++ ascii ")" ++ c = a ++ (40 :: 63 :: 33 :: (b ++ 41 :: c)) := by rw [hl, hr]; simp
    have hcut : cutAt true (a ++ ascii "(?!" ++ b ++ ascii ")" ++ c) a.length = some (a ++ c) := by
      unfold cutAt
      dsimp only
      have d1 : (a ++ ascii "(?!" ++ b ++ ascii ")" ++ c).drop (a.length + 1) = 63 :: 33 :: (b ++ 41 :: c) := by
        rw [hs, List.drop_append, List.drop_eq_nil_of_le (by omega)]
        simp
      have d0 : (a ++ ascii "(?!" ++ b ++ ascii ")" ++ c).drop a.length = 40 :: 63 :: 33 :: (b ++ 41 :: c) := by
        rw [hs, List.drop_left]
      rw [d1, d0]
      have hsc : scan true ((40 :: 63 :: 33 :: (b ++ 41 :: c) : Bytes).headD 0) (a.length + 1) 1 0 (63 :: 33 :: (b ++ 41 :: c)) = some (a.length + 3 + b.length) := by
        have : scan true 40 (a.length + 1) 1 0 (63 :: 33 :: (b ++ 41 :: c)) = scan true 33 (a.length + 3) 1 0 (b ++ 41 :: c) := by
          simp [scan]
        rw [List.headD_cons, this]
        exact scan_plain h40 h41 h92 (fun _ => by decide) rfl
      rw [hsc, Option.getD_some]
      have hsl : slice? (a ++ ascii "(?!" ++ b ++ ascii ")" ++ c) (a.length + 1 - 1) (a.length + 3 + b.length + 1) = some (ascii "(?!" ++ b ++ ascii ")") := by
        rw [slice_iff]
        exact ⟨a, c, by simp, by omega, by simp [hl, hr]; omega⟩
      rw [hsl]
      dsimp only
      unfold removeFirst
      -- the first occurrence of the whole group is the first `(?!`
      have hi : indexSub (a ++ ascii "(?!" ++ b ++ ascii ")" ++ c) (ascii "(?!" ++ b ++ ascii ")") = some a.length := by
        cases hx : indexSub (a ++ ascii "(?!" ++ b ++ ascii ")" ++ c) (ascii "(?!" ++ b ++ ascii ")") with
        | none => exact absurd ⟨a, c, by simp⟩ (indexSub_none hx)
        | some k =>
          have le1 : ∀ (s n m : Bytes) (i j : Nat), indexSub s n = some i → indexSub s (n ++ m) = some j → i ≤ j := by
            intro s n m
            induction s with
            | nil =>
              intro i j h1 _
              unfold indexSub at h1
              split at h1
              · cases h1; omega
              · cases h1
            | cons x xs ih =>
              intro i j h1 h2
              unfold indexSub at h1 h2
              by_cases hp : n.isPrefixOf (x :: xs) = true
              · rw [if_pos hp] at h1; cases h1; omega
              · rw [if_neg hp] at h1
                have hp2 : ¬ (n ++ m).isPrefixOf (x :: xs) = true := by
                  intro h
                  rw [List.isPrefixOf_iff_prefix] at h hp
                  exact hp ((List.prefix_append n m).trans h)
                rw [if_neg hp2] at h2
                cases h3 : indexSub xs n with
                | none => rw [h3] at h1; cases h1
                | some i' =>
                  cases h4 : indexSub xs (n ++ m) with
                  | none => rw [h4] at h2; cases h2
                  | some j' =>
                    rw [h3] at h1
                    rw [h4] at h2
                    cases h1
                    cases h2
                    have := ih i' j' h3 h4
                    show i' + 1 ≤ j' + 1
                    omega
          have le2 : ∀ (x n z : Bytes) (k : Nat), indexSub (x ++ n ++ z) n = some k → k ≤ x.length := by
            intro x n z
            induction x with
            | nil =>
              intro k hk
              cases n with
              | nil =>
                simp only [List.append_nil, List.nil_append] at hk
                cases z <;> simp [indexSub] at hk <;> simp [← hk]
              | cons y ys =>
                simp only [List.nil_append, List.cons_append] at hk
                unfold indexSub at hk
                rw [if_pos (List.isPrefixOf_iff_prefix.mpr ⟨z, by simp⟩)] at hk
                cases hk
                simp
            | cons y ys ih =>
              intro k hk
              simp only [List.cons_append] at hk
              unfold indexSub at hk
              split at hk
              · cases hk; simp
              · cases h3 : indexSub (ys ++ n ++ z) n with
                | none => rw [h3] at hk; cases hk
                | some k' =>
                  rw [h3] at hk
                  cases hk
                  have := ih k' h3
                  show k' + 1 ≤ ys.length + 1
                  omega
          have h1 := le1 _ _ (b ++ ascii ")") _ k hfirst (by rw [← List.append_assoc]; exact hx)
          have h2 := le2 a (ascii "(?!" ++ b ++ ascii ")") c k (by rw [← hx]; simp)
          rw [show k = a.length by omega]
      rw [hi]
      dsimp only
      have t1 : (a ++ ascii "(?!" ++ b ++ ascii ")" ++ c).take a.length = a := by rw [hs, List.take_left]
      have t2 : (a ++ ascii "(?!" ++ b ++ ascii ")" ++ c).drop (a.length + (ascii "(?!" ++ b ++ ascii ")").length) = c := by
        have : a ++ ascii "(?!" ++ b ++ ascii ")" ++ c = (a ++ (ascii "(?!" ++ b ++ ascii ")")) ++ c := by simp
        rw [this, ← List.length_append, List.drop_left]
      rw [t1, t2]
    dsimp only
    rw [hcut]
    dsimp only
    rw [dif_pos (by simp [hl, hr]; omega)]
    unfold cutAll
    cases hx : indexSub (a ++ c) (ascii "(?!") with
    | none => rfl
    | some k =>
      obtain ⟨x, y, hxy, _⟩ := indexSub_some hx
      exact absurd ⟨x, y, hxy.symm⟩ hleft
  unfold normalizeRegex
  rw [e1]
  dsimp only [Option.bind_eq_bind, Option.bind_some]
  rw [e2]
  dsimp only [Option.bind_eq_bind, Option.bind_some]
  rw [e3]
  dsimp only [Option.bind_eq_bind, Option.bind_some]
  rw [squeeze_id hbars]
  rfl

example : normalizeRegex (ascii "Chrome(?!book)(?:/(\\d+))?") = some (ascii "Chrome(?:/(\\d+))?") := by
  refine C44_removes (a := ascii "Chrome") (b := ascii "book") (c := ascii "(?:/(\\d+))?") ?_ ?_ ?_ ?_ ?_ ?_ ?_ ?_ ?_ <;> decide +kernel
example : normalizeRegex (ascii "(?<!like )Gecko(?!.*rv)(x)||(y)") = some (ascii "Gecko(x)|(y)") := by decide +kernel
/-- The stage property is not vacuous: this input reaches the third stage. -/
example : ∃ s1 s2, stage1 (ascii "a(?!b)") = some s1 ∧ stage2 s1 = some s2 ∧ HasLookahead s2 :=
  ⟨_, _, rfl, rfl, ascii "a", ascii "b", [], by decide, by decide, by decide⟩

/-! ### C45 -/

/-- C45: a pattern is treated as a regexp exactly when it contains one of the 16 characters. -/
theorem C45_isRegex (s : Bytes) : isRegex s = true ↔ ∃ c ∈ s, c ∈ ascii "?:.+*\\|^;()[]{}$" := isRegex_iff s

/-- C45: the emitted row is a literal one, denoting the pattern itself, exactly then (here for client rules; `MatchDen` says the same of
all others). -/
theorem C45_literal {env : Env} {files : List (List ClientRule)} {o : ClientOut} (h : compileClient env files = some o) (hs : Small o.st)
    {i j : Nat} {f : List ClientRule} {t : ClientRule} (hf : files[i]? = some f) (ht : f[j]? = some t) :
    ∃ ws w, o.rows[i]? = some ws ∧ ws[j]? = some w ∧
      ((¬ Special t.regex → w.matchRI = -1 ∧ Text o.st.buf.buf w.match64 t.regex) ∧ (Special t.regex → w.match64 = 0)) := by
  obtain ⟨o', h', den⟩ := client_ok env files
  rw [h] at h'
  cases h'
  obtain ⟨ws, hw, ha⟩ := all2_range (den hs).1 hf
  obtain ⟨w, hw', d⟩ := all2_range ha ht
  refine ⟨ws, w, hw, hw', fun hns => ?_, fun hsp => ?_⟩
  · cases d.m with
    | lit _ hr he => exact ⟨hr, he⟩
    | re _ h => exact absurd h hns
    | bad _ h => exact absurd h hns
  · cases d.m with
    | lit h => exact absurd hsp h
    | re _ _ _ _ _ _ he => exact he
    | bad _ _ _ _ _ he => exact he

/-! ### C46 -/

/-- C46: compilation never fails, and every emitted row denotes its rule: offsets denote the texts, regexp indices the normalised
patterns, ranges the versions and models. -/
theorem C46_os (env : Env) (rules : List OSRule) : ∃ rows F, compileOS env rules = some (rows, F) ∧ (Small F → All2 (OSDen env F) rules rows) := by
  obtain ⟨rows, F, h, den⟩ := os_ok env rules
  exact ⟨rows, F, h, fun hs => (den hs).1⟩

theorem C46_client (env : Env) (files : List (List ClientRule)) :
    ∃ o, compileClient env files = some o ∧ (Small o.st → All2 (All2 (ClientDen env o.st)) files o.rows) := by
  obtain ⟨o, h, den⟩ := client_ok env files
  exact ⟨o, h, fun hs => (den hs).1⟩

theorem C46_device (env : Env) (files : List (List DeviceRule)) : ∃ rows F, compileDevice env files = some (rows, F) ∧
    (Small F → ∃ sorted, All2 (fun f g => g.Perm f ∧ g.Pairwise (fun a b => strGe b.name a.name = true)) files sorted ∧
      All2 (All2 (DeviceDen env F)) sorted rows) := by
  obtain ⟨rows, F, h, den⟩ := device_ok env files
  refine ⟨rows, F, h, fun hs => ⟨files.map (sortBy (·.name)), ⟨by simp, fun i a b ha hb => ?_⟩, ⟨?_, fun i a b ha hb => ?_⟩⟩⟩
  · rw [List.getElem?_map, ha] at hb
    cases hb
    exact ⟨sortBy_perm _ _, sortBy_sorted _ _⟩
  · rw [List.length_map]
    exact (den hs).1.1
  · rw [List.getElem?_map] at ha
    obtain ⟨f, hf, rfl⟩ := Option.map_eq_some_iff.mp ha
    exact (den hs).1.2 i f b hf hb

theorem C46_vendor (rules : List VendorRule) : ∃ rows F, compileVendor rules = some (rows, F) ∧
    (Small F → ∃ sorted, sorted.Perm rules ∧ sorted.Pairwise (fun a b => strGe b.name a.name = true) ∧ All2 (VendorDen F) sorted rows) := by
  obtain ⟨rows, F, h, den⟩ := vendor_ok rules
  exact ⟨rows, F, h, fun hs => ⟨_, sortBy_perm _ _, sortBy_sorted _ _, den hs⟩⟩

/-- C46, numbers: the same read as ranges. All offsets are inside the buffers, all indices inside their tables, version ranges are not empty. -/
theorem C46_in_range {env : Env} {hash : Bytes → UInt64} {r : Rules} {o : Outputs} (ho : compile env hash r = some o) (hs : o.Small) :
    (∀ ws ∈ o.client.rows, ∀ w ∈ ws,
      (w.matchRI = -1 ∨ 0 ≤ w.matchRI ∧ w.matchRI.toNat < o.client.st.re.length) ∧ (w.engineFI = -1 ∨ 0 ≤ w.engineFI ∧ w.engineFI.toNat < o.client.st.ef.length) ∧
      InBuf o.client.st.buf.buf w.match64 ∧ InBuf o.client.st.buf.buf w.browser64 ∧ InBuf o.client.st.buf.buf w.version64 ∧ InBuf o.client.st.buf.buf w.engine64) ∧
    (∀ w ∈ o.os.1, (w.matchRI = -1 ∨ 0 ≤ w.matchRI ∧ w.matchRI.toNat < o.os.2.re.length) ∧
      InBuf o.os.2.buf.buf w.name64 ∧ InBuf o.os.2.buf.buf w.match64 ∧ InBuf o.os.2.buf.buf w.version64 ∧
      (w.versions64 ≠ 0 → w.versions64.toNat / 2 ^ 32 < w.versions64.toNat % 2 ^ 32 ∧ w.versions64.toNat % 2 ^ 32 ≤ o.os.2.ov.length)) ∧
    (∀ w ∈ o.os.2.ov, (w.matchRI = -1 ∨ 0 ≤ w.matchRI ∧ w.matchRI.toNat < o.os.2.re.length) ∧
      InBuf o.os.2.buf.buf w.match64 ∧ InBuf o.os.2.buf.buf w.version64) ∧
    (∀ ws ∈ o.device.1, ∀ w ∈ ws, (w.matchRI = -1 ∨ 0 ≤ w.matchRI ∧ w.matchRI.toNat < o.device.2.re.length) ∧
      InBuf o.device.2.buf.buf w.match64 ∧ InBuf o.device.2.buf.buf w.type64 ∧ InBuf o.device.2.buf.buf w.brand64 ∧
      (w.modelSI = -1 ∨ 0 ≤ w.modelSI ∧ w.modelSI.toNat < o.device.2.dm.length) ∧ w.models64.toNat % 2 ^ 32 ≤ o.device.2.dm.length) ∧
    (∀ w ∈ o.device.2.dm, (w.matchRI = -1 ∨ 0 ≤ w.matchRI ∧ w.matchRI.toNat < o.device.2.re.length) ∧
      InBuf o.device.2.buf.buf w.match64 ∧ InBuf o.device.2.buf.buf w.type64 ∧ InBuf o.device.2.buf.buf w.model64) ∧
    (∀ w ∈ o.vendor.1, InBuf o.vendor.2.buf.buf w.brand64 ∧ w.range64.toNat / 2 ^ 32 ≤ w.range64.toNat % 2 ^ 32 ∧
      w.range64.toNat % 2 ^ 32 ≤ o.vendor.2.re.length) ∧
    (∀ w ∈ o.hint.1, InBuf o.hint.2.buf.buf w.2) ∧
    (∀ x ∈ o.client.ev, x.2 < o.client.evre.length ∧ InBuf o.client.st.buf.buf x.1) := by
  obtain ⟨co, hc, cden⟩ := client_ok env r.client
  obtain ⟨orows, oF, hos, oden⟩ := os_ok env r.os
  obtain ⟨drows, dF, hd, dden⟩ := device_ok env r.device
  obtain ⟨vrows, vF, hv, vden⟩ := vendor_ok r.vendor
  obtain ⟨hl, hrows, hF, hh, hhe, hden⟩ := hint_ok hash r.hint
  unfold compile at ho
  simp only [hc, hos, hd, hv, hh] at ho
  cases ho
  obtain ⟨c1, c2, c3, c4, c5⟩ := cden hs.client
  obtain ⟨o1, o2⟩ := oden hs.os
  obtain ⟨d1, d2⟩ := dden hs.device
  have v1 := vden hs.vendor
  have hd' := hden hs.hint
  have mix : ∀ {compiles repl F rs lit} {ri : Int} {e : Entry64}, MatchDen compiles repl F rs lit ri e →
      (ri = -1 ∨ 0 ≤ ri ∧ ri.toNat < F.re.length) ∧ InBuf F.buf.buf e := by
    intro compiles repl F rs lit ri e h
    cases h with
    | lit _ hr he => exact ⟨.inl hr, _, he⟩
    | re n h hn hc hr hre he => subst he; exact ⟨.inr ⟨hr, (List.getElem?_eq_some_iff.mp hre).1⟩, inBuf_zero _⟩
    | bad _ _ _ _ hr he => subst he; exact ⟨.inl hr, inBuf_zero _⟩
  refine ⟨fun ws hws w hw => ?_, fun w hw => ?_, fun w hw => ?_, fun ws hws w hw => ?_, fun w hw => ?_, fun w hw => ?_, fun w hw => ?_, fun x hx => ?_⟩
  · obtain ⟨f, _, ha⟩ := all2_right c1 hws
    obtain ⟨t, _, den⟩ := all2_right ha hw
    obtain ⟨m1, m2⟩ := mix den.m
    refine ⟨m1, ?_, m2, den.name.inBuf, den.ver.inBuf, ?_⟩
    · cases he : t.engine with
      | none => exact .inl (den.noEngine he).2
      | some en =>
        obtain ⟨_, k1, k2⟩ := den.engine en he
        by_cases hvs : en.versions = []
        · exact .inl (k1 hvs)
        · obtain ⟨g1, f', g2, _⟩ := k2 hvs
          exact .inr ⟨g1, (List.getElem?_eq_some_iff.mp g2).1⟩
    · cases he : t.engine with
      | none => rw [(den.noEngine he).1]; exact inBuf_zero _
      | some en => exact (den.engine en he).1.inBuf
  · obtain ⟨t, _, den⟩ := all2_right o1 hw
    obtain ⟨m1, m2⟩ := mix den.m
    refine ⟨m1, den.name.inBuf, m2, ?_, fun hne => ?_⟩
    · by_cases hvs : t.versions = []
      · exact (den.ver hvs).2.inBuf
      · rw [(den.vers hvs).2.1]; exact inBuf_zero _
    · by_cases hvs : t.versions = []
      · exact absurd (den.ver hvs).1 hne
      · obtain ⟨_, _, ws, ⟨a, b, e1, e2, e3⟩, hws⟩ := den.vers hvs
        have := hws.1
        have := List.length_pos_iff.mpr hvs
        have e1 : oF.ov = a ++ ws ++ b := e1
        refine ⟨by omega, ?_⟩
        show _ ≤ oF.ov.length
        rw [e1]
        simp only [List.length_append]
        omega
  · obtain ⟨t, _, tv, _, den⟩ := o2 w hw
    obtain ⟨m1, m2⟩ := mix den.m
    exact ⟨m1, m2, den.v.inBuf⟩
  · obtain ⟨f, _, ha⟩ := all2_right d1 hws
    obtain ⟨t, _, den⟩ := all2_right ha hw
    obtain ⟨m1, m2⟩ := mix den.m
    refine ⟨m1, m2, ⟨_, den.typ⟩, ⟨_, den.brand⟩, ?_, ?_⟩
    · by_cases hms : t.models = []
      · by_cases hmo : t.model = []
        · exact .inl (den.none hms hmo).1
        · obtain ⟨_, g1, x, g2, _⟩ := den.model hms hmo
          exact .inr ⟨g1, (List.getElem?_eq_some_iff.mp g2).1⟩
      · exact .inl (den.models hms).1
    · by_cases hms : t.models = []
      · by_cases hmo : t.model = []
        · rw [(den.none hms hmo).2]; exact Nat.zero_le _
        · rw [(den.model hms hmo).1]; exact Nat.zero_le _
      · obtain ⟨_, ws, ⟨a, b, e1, e2, e3⟩, _⟩ := den.models hms
        have e1 : dF.dm = a ++ ws ++ b := e1
        show _ ≤ dF.dm.length
        rw [e1]
        simp only [List.length_append]
        omega
  · obtain ⟨f, _, t, _, hden⟩ := d2 w hw
    rcases hden with ⟨m, _, den⟩ | ⟨_, k1, k2, k3, k4⟩
    · obtain ⟨m1, m2⟩ := mix den.m
      exact ⟨m1, m2, ⟨_, den.typ⟩, ⟨_, den.model⟩⟩
    · rw [k1, k2, k3]
      exact ⟨.inl rfl, inBuf_zero _, inBuf_zero _, ⟨_, k4⟩⟩
  · obtain ⟨t, _, den⟩ := all2_right v1 hw
    obtain ⟨a, b, e1, e2, e3⟩ := den.res
    have e1 : vF.re = _ := e1
    refine ⟨⟨_, den.brand⟩, by omega, ?_⟩
    show _ ≤ vF.re.length
    rw [e1]
    simp only [List.length_append]
    omega
  · have hw : w ∈ hrows := hw
    rw [hhe] at hw
    obtain ⟨y, hy, rfl⟩ := List.mem_map.mp hw
    obtain ⟨v, _, ht⟩ := hd'.value y.1 y.2 hy
    exact ⟨v, ht⟩
  · obtain ⟨j, hj⟩ := List.getElem?_of_mem hx
    have hlt := (List.getElem?_eq_some_iff.mp hj).1
    have hlt' := hlt
    rw [c4] at hlt'
    rw [c4, c3, List.length_map] at hlt
    obtain ⟨hx2, ht⟩ := c5 j _ x (List.getElem?_eq_getElem hlt) hj
    exact ⟨by rw [hx2]; exact hlt', _, ht⟩

/-- A rule set exercising all modules. -/
def demoRules : Rules where
  client := [[{ regex := ascii "Feedly", name := ascii "Feedly", version := ascii "1.0" }],
    [{ regex := ascii "Chrome/(\\d+)", name := ascii "Chrome", version := ascii "$1",
       engine := some { default := ascii "WebKit", versions := [(ascii "28", ascii "Blink")] } }, { regex := ascii "(", name := ascii "Bad" }]]
  os := [{ name := ascii "Android", regex := ascii "Android (\\d+)", version := ascii "$1" },
    { name := ascii "Windows", regex := ascii "Windows", versions := [{ regex := ascii "NT 10", version := ascii "10" }, { regex := ascii "NT 6\\.(\\d)", version := ascii "$1" }] }]
  device := [[{ name := ascii "Google", regex := ascii "Pixel", device := ascii "smartphone", models := [{ regex := ascii "Pixel (\\d)", model := ascii "Pixel $1" }] },
    { name := ascii "Acer", regex := ascii "Acer", model := ascii "A1" }]]
  vendor := [{ name := ascii "Dell", regex := [ascii "MDDR", ascii "MDDC"] }, { name := ascii "Acer", regex := [ascii "MAAR"] }]
  hint := [[(ascii "org.a", ascii "A")], [(ascii "org.a", ascii "X"), (ascii "org.b", ascii "B")]]

def demoEnv : Env := { compiles := fun p => p ≠ ascii "(" }

instance (F : St) : Decidable (Small F) :=
  decidable_of_iff (F.buf.buf.length < 2 ^ 32 ∧ F.re.length ≤ 2 ^ 31 ∧ F.ov.length < 2 ^ 32 ∧ F.dm.length < 2 ^ 31 ∧ F.ef.length ≤ 2 ^ 31)
    ⟨fun ⟨a, b, c, d, e⟩ => ⟨a, b, c, d, e⟩, fun ⟨a, b, c, d, e⟩ => ⟨a, b, c, d, e⟩⟩

/-- The size condition is met by it, and the outcome is what one expects. -/
example : (compileOS demoEnv demoRules.os).isSome = true ∧ (∀ x ∈ compileOS demoEnv demoRules.os, Small x.2 ∧
    x.1 = [{ name64 := 0x7, matchRI := 0, versionSI := 1 }, { name64 := 0x70000000e, match64 := 0x70000000e, versions64 := 0x2 }] ∧
    x.2.re = [ascii "Android (\\d+)", ascii "NT 6\\.(\\d)"] ∧ x.2.buf.buf = ascii "AndroidWindowsNT 1010") := by decide +kernel
example : (compile demoEnv (fun b => UInt64.ofNat b.length) demoRules).isSome = true := by decide +kernel
example : ∀ o ∈ compile demoEnv (fun b => UInt64.ofNat b.length) demoRules, Small o.client.st ∧ Small o.os.2 ∧ Small o.device.2 ∧ Small o.vendor.2 ∧ Small o.hint.2 := by
  decide +kernel

/-! ### C47 -/

/-- A function giving the number of groups of a pattern: a pattern without `(` has none. -/
def GroupCount (g : Bytes → Nat) : Prop := ∀ p, 40 ∉ p → g p = 0

/-- C47: every group index emitted for a client rule is -1 or exists in the rule's regexp. -/
def C47Claim : Prop := ∀ (g : Bytes → Nat), GroupCount g → ∀ (env : Env) (files : List (List ClientRule)) (o : ClientOut),
  compileClient env files = some o → Small o.st → ∀ ws ∈ o.rows, ∀ w ∈ ws, ∀ p, 0 ≤ w.matchRI → o.st.re[w.matchRI.toNat]? = some p →
    w.browserVI = -1 ∨ (0 ≤ w.browserVI.toInt ∧ w.browserVI.toInt ≤ g p)

/-- C47 is refuted: nothing checks the group number of a version. -/
theorem C47_refuted : ¬ C47Claim := by
  intro h
  let files : List (List ClientRule) := [[{ regex := ascii "^Pods/", name := ascii "Pods", version := ascii "$1" }]]
  let env : Env := { compiles := fun _ => true }
  obtain ⟨o, ho, den⟩ := client_ok env files
  have hs : ∀ o ∈ compileClient env files, Small o.st := by decide +kernel
  have hw : ∀ o ∈ compileClient env files, o.rows = [[{ matchRI := 0, browser64 := 4, browserVI := 1 }]] ∧ o.st.re = [ascii "^Pods/"] := by decide +kernel
  obtain ⟨h1, h2⟩ := hw o ho
  have := h (fun p => if 40 ∈ p then 1 else 0) (fun p hp => if_neg hp) env files o ho (hs o ho) [{ matchRI := 0, browser64 := 4, browserVI := 1 }]
    (by rw [h1]; simp) _ (List.mem_singleton.mpr rfl) (ascii "^Pods/") (by decide) (by rw [h2]; rfl)
  revert this
  decide

/-- C47, what holds: the index is the number written after `$` in the rule (as an int8), and -1 without one. -/
theorem C47_partial {env : Env} {files : List (List ClientRule)} {o : ClientOut} (h : compileClient env files = some o) (hs : Small o.st)
    {i j : Nat} {f : List ClientRule} {t : ClientRule} (hf : files[i]? = some f) (ht : f[j]? = some t) :
    ∃ ws w, o.rows[i]? = some ws ∧ ws[j]? = some w ∧
      (∀ x, t.version = 36 :: x → w.browserVI = clientIx x ∧ w.version64 = 0) ∧ ((∀ x, t.version ≠ 36 :: x) → w.browserVI = -1) := by
  obtain ⟨o', h', den⟩ := client_ok env files
  rw [h] at h'
  cases h'
  obtain ⟨ws, hw, ha⟩ := all2_range (den hs).1 hf
  obtain ⟨w, hw', d⟩ := all2_range ha ht
  refine ⟨ws, w, hw, hw', fun x hx => ?_, fun hx => ?_⟩
  · cases d.ver with
    | none h => rw [h] at hx; cases hx
    | group r h hv he => rw [h] at hx; cases hx; exact ⟨hv, he⟩
    | const _ hd => rw [hx] at hd; exact absurd rfl hd
  · cases d.ver with
    | none _ hv => exact hv
    | group r h => exact absurd h (hx r)
    | const _ _ hv => exact hv

example : clientIx (ascii "3") = 3 ∧ clientIx (ascii "300") = 44 ∧ clientIx (ascii "x") = 0 := by decide +kernel

/-! ### C58 -/

/-- C58: rules that satisfy `RulesOK` for `u`, compiled by uaxplc and loaded with regexps that honour the documented contract, give tables
that are well formed for `u`, … -/
theorem C58_well_formed {env : Env} {hash : Bytes → UInt64} {lib : Bytes → Re} {r : Rules} {o : Outputs} {u : Bytes} (fb ft fm : Re)
    (hlib : ∀ p, (lib p).WF) (hev : ∀ n, n ∈ o.client.st.engines → n ≠ [] → MandatoryGroup (lib (anyCase (enginePattern n))))
    (ho : compile env hash r = some o) (hs : o.Small) (hr : RulesOK env lib r u) : WFfor (tablesOf lib fb ft fm o) u :=
  compiled_wf fb ft fm hlib hev ho hs hr

/-- … so that no call but GetModel panics on `u`, in any schedule. -/
theorem C58_no_panic {env : Env} {hash : Bytes → UInt64} {lib : Bytes → Re} {r : Rules} {o : Outputs} (fb ft fm : Re)
    (hlib : ∀ p, (lib p).WF) (hev : ∀ n, n ∈ o.client.st.engines → n ≠ [] → MandatoryGroup (lib (anyCase (enginePattern n))))
    (ho : compile env hash r = some o) (hs : o.Small) {s : Sys} (hreach : Sys.Reach (tablesOf lib fb ft fm o) hash s)
    {pre post : List Event} {t : Nat} {op : Op} {res : Option (Option Ans)} (hlog : s.log = pre ++ .ret t op res :: post)
    (hop : op ≠ .get .model) (hr : RulesOK env lib r (reqOf pre t).ua) (hl : (reqOf pre t).ua.length < 2 ^ 32) : res ≠ none :=
  C26_no_panic hreach hlog hop (compiled_wf fb ft fm hlib hev ho hs hr) hl

/-- The demo rules, with all files present, and a library in which every pattern is `Chrome/([\d._]*)`. -/
def demoFull : Rules := { demoRules with
  client := demoRules.client ++ List.replicate 5 [{ regex := ascii "x1", name := ascii "y" }]
  device := demoRules.device ++ List.replicate 7 [{ name := ascii "Z", regex := ascii "zz", model := ascii "m" }] }

theorem demo_rulesOK (u : Bytes) : RulesOK demoEnv (fun _ => Demo.litRe "Chrome/") demoFull u := by
  have ref : ∀ (v : Bytes) (ix : Bytes → Int8), (∀ x, v = 36 :: x → ix x = 1) → RefOK (Demo.litRe "Chrome/") u v ix := by
    intro v ix h x hx _
    rw [h x hx]
    exact .inr (by decide)
  have sp : ∀ (v : Bytes) (ix : Bytes → Int8), (v.headD 0 ≠ 36 ∨ ix v.tail = 1) → ∀ x, v = 36 :: x → ix x = 1 := by
    rintro v ix h x rfl
    rcases h with h | h
    · exact absurd rfl h
    · exact h
  refine ⟨?_, fun f hf t ht p _ => ref _ _ (sp _ _ ?_), ?_, by decide, fun t ht p _ => ⟨ref _ _ (sp _ _ ?_), fun _ => ref _ _ (sp _ _ ?_)⟩,
    fun t ht v hv p _ => ref _ _ (sp _ _ ?_), ?_, by decide +kernel⟩
  · intro i hi
    have : ∀ i : Fin 7, (demoFull.client[i.val]?).isSome = true ∧ ∀ f ∈ demoFull.client[i.val]?, f ≠ [] := by decide +kernel
    obtain ⟨h1, h2⟩ := this ⟨i, hi⟩
    obtain ⟨f, hf⟩ := Option.isSome_iff_exists.mp h1
    exact ⟨f, hf, h2 f hf⟩
  · exact (by decide +kernel : ∀ f ∈ demoFull.client, ∀ t ∈ f, t.version.headD 0 ≠ 36 ∨ clientIx t.version.tail = 1) f hf t ht
  · decide +kernel
  · exact (by decide +kernel : ∀ t ∈ demoFull.os, t.name.headD 0 ≠ 36 ∨ osIx t.name.tail = 1) t ht
  · exact (by decide +kernel : ∀ t ∈ demoFull.os, t.version.headD 0 ≠ 36 ∨ osIx t.version.tail = 1) t ht
  · exact (by decide +kernel : ∀ t ∈ demoFull.os, ∀ v ∈ t.versions, v.version.headD 0 ≠ 36 ∨ osIx v.version.tail = 1) t ht v hv
  · intro i hi
    have : ∀ i : Fin 8, (demoFull.device[i.val]?).isSome = true ∧ ∀ f ∈ demoFull.device[i.val]?, f ≠ [] := by decide +kernel
    obtain ⟨h1, h2⟩ := this ⟨i, hi⟩
    obtain ⟨f, hf⟩ := Option.isSome_iff_exists.mp h1
    exact ⟨f, hf, h2 f hf⟩

/-- The hypotheses of C58 can be met together. -/
example (u : Bytes) : ∃ o, compile demoEnv Demo.hash demoFull = some o ∧ o.Small ∧
    WFfor (tablesOf (fun _ => Demo.litRe "Chrome/") (Demo.plainRe "A") (Demo.plainRe "B") (Demo.plainRe "C") o) u := by
  have h1 : (compile demoEnv Demo.hash demoFull).isSome = true := by decide +kernel
  have h2 : ∀ o ∈ compile demoEnv Demo.hash demoFull, Small o.client.st ∧ Small o.os.2 ∧ Small o.device.2 ∧ Small o.vendor.2 ∧ Small o.hint.2 := by decide +kernel
  obtain ⟨o, ho⟩ := Option.isSome_iff_exists.mp h1
  obtain ⟨a, b, c, d, e⟩ := h2 o ho
  exact ⟨o, ho, ⟨a, b, c, d, e⟩, C58_well_formed _ _ _ (fun _ => Demo.litRe_wf _) (fun _ _ _ => Demo.litRe_group _) ho ⟨a, b, c, d, e⟩ (demo_rulesOK u)⟩

/-! ### C59 -/

/-- C59 (refutes part of C40): of several engine thresholds only the one that is smallest as a string has any effect. For rules with thresholds
`versions` the engine of version `s` is that of the smallest threshold if `s` is not below it, and the default otherwise. -/
theorem C59_first_threshold {F : St} {en : EngineRule} {d : Entry64} {f : EngineFn} (h : EngineFnDen F en d f) {v : Bytes × Bytes}
    (hv : v ∈ en.versions) (hmin : ∀ w ∈ en.versions, strGe w.1 v.1 = true) (huniq : ∀ w ∈ en.versions, w.1 = v.1 → w = v) (s : Bytes) :
    (strGe s v.1 = true → Text F.buf.buf (f.run s) v.2) ∧ (strGe s v.1 = false → f.run s = d) := by
  obtain ⟨vs, hp, hsort, ha⟩ := h.cases
  cases vs with
  | nil => exact absurd (hp.mem_iff.mpr hv) (by simp)
  | cons w ws =>
    have hw : w ∈ en.versions := hp.mem_iff.mp (List.mem_cons_self ..)
    have hwv : w = v := by
      refine huniq w hw (strGe_anti (hmin w hw) ?_)
      rcases List.mem_cons.mp (hp.mem_iff.mpr hv) with h | h
      · subst h
        have := strGe_total v.1 v.1
        simpa using this
      · exact (List.pairwise_cons.mp hsort).1 v h
    subst hwv
    obtain ⟨c, hc, k1, k2⟩ := all2_range ha (i := 0) (a := w) rfl
    have hcs : ∃ cs, f.cases = c :: cs := by
      cases hfc : f.cases with
      | nil => rw [hfc] at hc; cases hc
      | cons x xs => rw [hfc] at hc; cases hc; exact ⟨xs, rfl⟩
    obtain ⟨cs, hcs⟩ := hcs
    unfold EngineFn.run
    rw [hcs] at ha ⊢
    constructor
    · intro hs
      rw [List.find?_cons, k1, hs]
      exact k2
    · intro hs
      have : (c :: cs).find? (fun x => strGe s x.1) = none := by
        rw [List.find?_eq_none]
        intro x hx hsx
        obtain ⟨y, hy, e, _⟩ := all2_right ha hx
        rw [e] at hsx
        have hge : strGe y.1 w.1 = true := by
          rcases List.mem_cons.mp hy with rfl | hy
          · exact hmin y hw
          · exact (List.pairwise_cons.mp hsort).1 y hy
        rw [strGe_trans hge hsx] at hs
        cases hs
      rw [this]
      exact h.dflt

/-- The thresholds of Opera as shipped: "15" (Blink), "3.5" (Elektra), "7" (Presto). Version 9 is reported as Blink instead of Presto. -/
example : ∀ x ∈ engineFn [(ascii "3.5", ascii "Elektra"), (ascii "7", ascii "Presto"), (ascii "15", ascii "Blink")] 0 {},
    sliceE? x.2.buf.buf (x.1.run (ascii "9")) = some (ascii "Blink") ∧ sliceE? x.2.buf.buf (x.1.run (ascii "12")) = some [] := by decide +kernel

/-! ### C40 -/

/-- Value of a decimal numeral. -/
def decVal : Bytes → Nat
  | [] => 0
  | c :: s => (c.toNat - 48) * 10 ^ s.length + decVal s

def IsDec (s : Bytes) : Prop := s ≠ [] ∧ ∀ c ∈ s, 48 ≤ c.toNat ∧ c.toNat ≤ 57

instance (s : Bytes) : Decidable (IsDec s) := inferInstanceAs (Decidable (_ ∧ _))

/-- C40: when the rule has one threshold, all versions numerically at or above it get the new engine and all below it the default. -/
def C40Claim : Prop := ∀ (F : St) (en : EngineRule) (d : Entry64) (f : EngineFn), EngineFnDen F en d f → ∀ N name, en.versions = [(N, name)] → IsDec N →
  ∀ s, IsDec s → (decVal N ≤ decVal s → Text F.buf.buf (f.run s) name) ∧ (decVal s < decVal N → f.run s = d)

/-- C40 is refuted: Chrome 100 is below Chrome 28. -/
theorem C40_refuted : ¬ C40Claim := by
  intro h
  let en : EngineRule := { default := ascii "WebKit", versions := [(ascii "28", ascii "Blink")] }
  obtain ⟨f, s, e, _, den⟩ := (spec_engineFn en 0).start
  have h2 : ∀ x ∈ engineFn en.versions 0 {}, Small x.2 ∧ sliceE? x.2.buf.buf (x.1.run (ascii "100")) = some [] := by decide +kernel
  obtain ⟨k1, k2⟩ := h2 (f, s) e
  have ht := (h s en 0 f (den k1) (ascii "28") (ascii "Blink") rfl (by decide) (ascii "100") (by decide)).1 (by decide)
  have h3 : ∀ x ∈ engineFn en.versions 0 {}, x.1.run (ascii "100") = 0 := by decide +kernel
  rw [h3 (f, s) e] at ht
  exact text_ne_zero ht (by decide) rfl

theorem decVal_lt {s : Bytes} (h : ∀ c ∈ s, 48 ≤ c.toNat ∧ c.toNat ≤ 57) : decVal s < 10 ^ s.length := by
  induction s with
  | nil => simp [decVal]
  | cons c s ih =>
    have h1 := h c (List.mem_cons_self ..)
    have h2 := ih fun x hx => h x (List.mem_cons_of_mem _ hx)
    simp only [decVal, List.length_cons, Nat.pow_succ]
    have : (c.toNat - 48) * 10 ^ s.length ≤ 9 * 10 ^ s.length := Nat.mul_le_mul_right _ (by omega)
    omega

/-- Numerals of the same length are compared numerically. -/
theorem strGe_dec {s t : Bytes} (hl : s.length = t.length) (hs : ∀ c ∈ s, 48 ≤ c.toNat ∧ c.toNat ≤ 57)
    (ht : ∀ c ∈ t, 48 ≤ c.toNat ∧ c.toNat ≤ 57) : strGe s t = true ↔ decVal t ≤ decVal s := by
  induction s generalizing t with
  | nil =>
    cases t with
    | nil => simp [strGe, decVal]
    | cons y ys => simp at hl
  | cons x xs ih =>
    cases t with
    | nil => simp at hl
    | cons y ys =>
      simp only [List.length_cons, Nat.add_right_cancel_iff] at hl
      have hx := hs x (List.mem_cons_self ..)
      have hy := ht y (List.mem_cons_self ..)
      have hs' : ∀ c ∈ xs, 48 ≤ c.toNat ∧ c.toNat ≤ 57 := fun c hc => hs c (List.mem_cons_of_mem _ hc)
      have ht' : ∀ c ∈ ys, 48 ≤ c.toNat ∧ c.toNat ≤ 57 := fun c hc => ht c (List.mem_cons_of_mem _ hc)
      have l1 := decVal_lt hs'
      have l2 := decVal_lt ht'
      have ih2 := ih hl hs' ht'
      simp only [strGe, Bool.or_eq_true, Bool.and_eq_true, decide_eq_true_eq, decVal, hl] at l1 ⊢
      rw [UInt8.lt_iff_toNat_lt]
      rcases Nat.lt_trichotomy y.toNat x.toNat with h | h | h
      · refine ⟨fun _ => ?_, fun _ => .inl h⟩
        have : (y.toNat - 48 + 1) * 10 ^ ys.length ≤ (x.toNat - 48) * 10 ^ ys.length := Nat.mul_le_mul_right _ (by omega)
        rw [Nat.add_mul] at this
        omega
      · have hxy : x = y := UInt8.toNat_inj.mp h.symm
        subst hxy
        constructor
        · rintro (h | ⟨_, h⟩)
          · omega
          · have := ih2.mp h; omega
        · intro h
          exact .inr ⟨rfl, ih2.mpr (by omega)⟩
      · constructor
        · rintro (h' | ⟨rfl, _⟩) <;> omega
        · intro h'
          have : (x.toNat - 48 + 1) * 10 ^ ys.length ≤ (y.toNat - 48) * 10 ^ ys.length := Nat.mul_le_mul_right _ (by omega)
          rw [Nat.add_mul] at this
          omega

/-- C40, what holds: versions with as many digits as the threshold. -/
theorem C40_partial {F : St} {en : EngineRule} {d : Entry64} {f : EngineFn} (h : EngineFnDen F en d f) {N name : Bytes}
    (hv : en.versions = [(N, name)]) (hN : IsDec N) {s : Bytes} (hs : IsDec s) (hl : s.length = N.length) :
    (decVal N ≤ decVal s → Text F.buf.buf (f.run s) name) ∧ (decVal s < decVal N → f.run s = d) := by
  have ref : strGe N N = true := by simpa using strGe_total N N
  have := C59_first_threshold h (v := (N, name)) (by simp [hv]) (by simp [hv, ref]) (by simp [hv]) s
  have e := strGe_dec hl hs.2 hN.2
  refine ⟨fun h => this.1 (e.mpr h), fun h => this.2 ?_⟩
  cases hb : strGe s N with
  | false => rfl
  | true => have := e.mp hb; omega

example : IsDec (ascii "28") ∧ IsDec (ascii "99") ∧ decVal (ascii "28") = 28 ∧ decVal (ascii "99") = 99 ∧ strGe (ascii "100") (ascii "28") = false := by
  decide

/-! ### C60 -/

/-- C60: the hint table contains exactly the keys of all files, each once; a key that occurs in several files has the value of the first. -/
theorem C60_hints (hash : Bytes → UInt64) (files : List (List (Bytes × Bytes))) : ∃ (l : List (Bytes × Entry64)) (rows : List (UInt64 × Entry64)) (F : St), compileHint hash files = some (rows, F) ∧
    rows = l.map (fun x => (hash x.1, x.2)) ∧ (Small F →
      (∀ k e, (k, e) ∈ l → ∃ v, files.findSome? (fun f => f.lookup k) = some v ∧ Text F.buf.buf e v) ∧
      (∀ k v, files.findSome? (fun f => f.lookup k) = some v → ∃ e, (k, e) ∈ l) ∧ (l.map (·.1)).Nodup) := by
  obtain ⟨l, rows, F, h1, h2, h3⟩ := hint_ok hash files
  exact ⟨l, rows, F, h1, h2, fun hs => ⟨(h3 hs).value, (h3 hs).all, (h3 hs).nodup⟩⟩

example : ∀ x ∈ compileHint (fun b => UInt64.ofNat b.length) demoRules.hint, Small x.2 ∧ x.1.length = 2 ∧ x.2.buf.buf = ascii "AB" := by decide +kernel

/-! ### C61 -/

theorem rowMatch_of {env : Env} {repl : Bytes → Option Bytes} {F : St} {rs lit u : Bytes} {ri : Int} {e : Entry64} {lib : Bytes → Re}
    (h : MatchDen env.compiles repl F rs lit ri e) : RowMatch (F.re.map lib) F.buf.buf u ri e ↔ RuleMatch env repl lib rs lit u := by
  unfold RowMatch RuleMatch patternOf
  cases h with
  | lit hn hr he =>
    subst hr
    constructor
    · rintro (⟨h, _⟩ | ⟨_, l, h1, h2, h3⟩)
      · omega
      · have := text_unique h2 he
        subst this
        exact .inl ⟨hn, h1, h3⟩
    · rintro (⟨_, h1, h2⟩ | ⟨p, ⟨h, _⟩, _⟩)
      · exact .inr ⟨by omega, lit, h1, he, h2⟩
      · exact absurd h hn
  | re n hsp hn hc hr hre he =>
    constructor
    · rintro (⟨_, re, h1, h2⟩ | ⟨h, _⟩)
      · rw [List.getElem?_map, hre] at h1
        cases h1
        exact .inr ⟨_, ⟨hsp, n, hn, rfl, hc⟩, h2⟩
      · omega
    · rintro (⟨h, _⟩ | ⟨p, ⟨_, n', h1, h2, h3⟩, h4⟩)
      · exact absurd hsp h
      · rw [hn] at h1
        cases h1
        subst h2
        exact .inl ⟨hr, _, by rw [List.getElem?_map, hre]; rfl, h4⟩
  | bad n hsp hn hc hr he =>
    subst he
    constructor
    · rintro (⟨h, _⟩ | ⟨_, l, h1, h2, _⟩)
      · omega
      · exact absurd rfl (text_ne_zero h2 h1)
    · rintro (⟨h, _⟩ | ⟨p, ⟨_, n', h1, h2, h3⟩, _⟩)
      · exact absurd hsp h
      · rw [hn] at h1
        cases h1
        subst h2
        rw [hc] at h3
        cases h3

/-- C61: an emitted row matches exactly the user agents its rule matches: a pattern without special characters wherever it occurs (an empty
one never), any other where the regexp made from it matches; a pattern that does not compile never matches. -/
theorem C61_client {env : Env} {files : List (List ClientRule)} {o : ClientOut} (h : compileClient env files = some o) (hs : Small o.st) (lib : Bytes → Re)
    {i j : Nat} {f : List ClientRule} {t : ClientRule} (hf : files[i]? = some f) (ht : f[j]? = some t) (u : Bytes) :
    ∃ ws w, o.rows[i]? = some ws ∧ ws[j]? = some w ∧
      (RowMatch (o.st.re.map fun p => lib (atWord p)) o.st.buf.buf u w.matchRI w.match64 ↔
        RuleMatch env env.replClient (fun p => lib (atWord p)) t.regex t.regex u) := by
  obtain ⟨o', h', den⟩ := client_ok env files
  rw [h] at h'
  cases h'
  obtain ⟨ws, hw, ha⟩ := all2_range (den hs).1 hf
  obtain ⟨w, hw', d⟩ := all2_range ha ht
  exact ⟨ws, w, hw, hw', rowMatch_of d.m⟩

theorem C61_os {env : Env} {rules : List OSRule} {rows : List OSTuple} {F : St} (h : compileOS env rules = some (rows, F)) (hs : Small F) (lib : Bytes → Re)
    {i : Nat} {t : OSRule} (ht : rules[i]? = some t) (u : Bytes) :
    ∃ w, rows[i]? = some w ∧ (RowMatch (F.re.map fun p => lib (anyCase p)) F.buf.buf u w.matchRI w.match64 ↔
      RuleMatch env env.replOS (fun p => lib (anyCase p)) t.regex t.regex u) := by
  obtain ⟨_, _, h', den⟩ := os_ok env rules
  rw [h] at h'
  cases h'
  obtain ⟨w, hw, d⟩ := all2_range (den hs).1 ht
  exact ⟨w, hw, rowMatch_of d.m⟩

/-- For devices a pattern may be replaced before it is classified (`TCL`, `Loewe`); the replacement decides what is matched, unless it is a
literal too, and then the original text is searched. -/
theorem C61_device {env : Env} {files : List (List DeviceRule)} {rows : List (List DeviceTuple)} {F : St} (h : compileDevice env files = some (rows, F))
    (hs : Small F) (lib : Bytes → Re) (u : Bytes) {ws : List DeviceTuple} (hws : ws ∈ rows) {w : DeviceTuple} (hw : w ∈ ws) :
    ∃ f ∈ files, ∃ t ∈ f, Text F.buf.buf w.brand64 t.name ∧ (RowMatch (F.re.map fun p => lib (anyCase p)) F.buf.buf u w.matchRI w.match64 ↔
      RuleMatch env env.replDevice (fun p => lib (anyCase p)) ((env.staticRepl t.regex).getD t.regex) t.regex u) := by
  obtain ⟨_, _, h', den⟩ := device_ok env files
  rw [h] at h'
  cases h'
  obtain ⟨f, hf, ha⟩ := all2_right (den hs).1 hws
  obtain ⟨t, ht, d⟩ := all2_right ha hw
  exact ⟨f, hf, t, (sortBy_perm _ f).mem_iff.mp ht, d.brand, rowMatch_of d.m⟩

example : RuleMatch demoEnv (fun _ => none) (fun _ => Demo.plainRe "Chrome") (ascii "Feedly") (ascii "Feedly") (ascii "x Feedly/1") :=
  .inl ⟨by rw [← isRegex_iff]; decide, by decide, ascii "x ", ascii "/1", by decide⟩

end Verif.Compiler

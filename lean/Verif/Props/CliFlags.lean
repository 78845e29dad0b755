import Verif.Proofs.CliFlags
import Verif.Props.Fetch
import Verif.Props.SingleShipped
/-
C90: the command line of the comparison tool.
-/
namespace Verif.Cli

open Tool (FS put)
open Data

section
variable {ss : List (Flag × Bytes)} {as : List Bytes} {e : Around} {fs : FS}

/-- **C90**. Arguments that spell valid settings are accepted, and every option is the last value given for it, or its default. -/
theorem C90_read (hs : Spelled ss as) (hv : Valid ss) : ∃ o, readArgs {} as = .ok o ∧ Obeys ss o := by
  obtain ⟨o, ho⟩ := valid_applyAll ss hv {}
  exact ⟨o, spelled_read hs ho, (applyAll_obeys ss ho).2⟩

/-- **C90**. Nothing else is accepted. -/
theorem C90_accepted {o : Opts} (h : readArgs {} as = .ok o) : ∃ ss, Spelled ss as ∧ Valid ss ∧ Obeys ss o := by
  obtain ⟨ss, h1, h2⟩ := read_spelled _ as (Nat.le_refl _) h
  exact ⟨ss, h1, applyAll_obeys ss h2⟩

/-- **C90**. With other arguments the program shows its usage or complains, and no file changes. -/
theorem C90_refused (h : ∀ ss, Spelled ss as → ¬ Valid ss) (e : Around) (fs : FS) : invoke e fs as = (.help, fs) ∨ invoke e fs as = (.usage, fs) := by
  unfold invoke
  cases hr : readArgs {} as with
  | ok o => obtain ⟨ss, h1, h2, -⟩ := C90_accepted hr; exact absurd h2 (h ss h1)
  | help => exact .inl rfl
  | bad => exact .inr rfl

/-- **C90**. Without a user agent, a file or a URL the program complains, and no file changes. -/
theorem C90_nothing (hs : Spelled ss as) (hv : Valid ss) (h1 : (last .ua ss).getD [] = []) (h2 : (last .file ss).getD [] = []) (h3 : (last .url ss).getD [] = []) :
    invoke e fs as = (.fatal, fs) := by
  obtain ⟨o, hr, ho⟩ := C90_read hs hv
  unfold invoke
  rw [hr]
  have : begin e fs o.args = (.fatal, fs) := by
    unfold begin
    rw [if_pos ⟨ho.ua.trans h1, ho.file.trans h2, ho.url.trans h3⟩]
  simp only [this]

/-- **C90**. A user agent goes before a file, and a file before a URL: with several of them given the others have no effect, nor have the format and the verbosity. -/
theorem C90_ignored {ss' : List (Flag × Bytes)} {as' : List Bytes} (hs : Spelled ss as) (hv : Valid ss) (hs' : Spelled ss' as') (hv' : Valid ss')
    (hu : last .ua ss = last .ua ss') (hf : (last .ua ss).getD [] = [] → last .file ss = last .file ss')
    (hl : (last .ua ss).getD [] = [] → (last .file ss).getD [] = [] → last .url ss = last .url ss') (ho : last .out ss = last .out ss')
    (ht : (last .ua ss).getD [] = [] → last .threads ss = last .threads ss') : invoke e fs as = invoke e fs as' := by
  obtain ⟨o, h1, b⟩ := C90_read hs hv
  obtain ⟨o', h1', b'⟩ := C90_read hs' hv'
  have eu : o.ua = o'.ua := by rw [b.ua, b'.ua, hu]
  have eo : o.out = o'.out := by rw [b.out, b'.out, ho]
  unfold invoke
  rw [h1, h1']
  simp only
  by_cases h : o.ua = []
  · have h0 : (last .ua ss).getD [] = [] := b.ua.symm.trans h
    have ef : o.file = o'.file := by rw [b.file, b'.file, hf h0]
    have et : o.threads = o'.threads := Option.some.inj (by rw [← number_iff.mpr b.threads, ← number_iff.mpr b'.threads, ht h0])
    by_cases hfile : o.file = []
    · have el : o.url = o'.url := by rw [b.url, b'.url, hl h0 (b.file.symm.trans hfile)]
      have : o.args = o'.args := by simp only [Opts.args, eu, ef, el, eo, et]
      rw [this, et, eo]
    · have : begin e fs o.args = begin e fs o'.args := by
        have k : ∀ o : Opts, o.ua = [] → o.file ≠ [] → begin e fs o.args = if e.opens = false then (.fatal, fs) else
            match (put fs o.out [] o.file).bind e.json with | none => (.fatal, put fs o.out []) | some rows => (.compare rows, put fs o.out []) := by
          intro o h1 h2
          unfold begin
          rw [if_neg (show ¬ (o.args.ua = [] ∧ o.args.file = [] ∧ o.args.url = []) from fun x => h2 x.2.1)]
          split
          · rfl
          · simp only
            rw [if_neg (show ¬ o.args.ua ≠ [] from fun h => h h1), if_pos (show o.args.file ≠ [] from h2)]
            rfl
        rw [k o h hfile, k o' (eu ▸ h) (ef ▸ hfile), ef, eo]
      rw [this, et, eo]
  · have h' : o'.ua ≠ [] := eu ▸ h
    have k : ∀ o : Opts, o.ua ≠ [] → begin e fs o.args = if e.opens = false then (.fatal, fs) else (.show o.ua, put fs o.out []) := by
      intro o h
      unfold begin
      rw [if_neg (show ¬ (o.args.ua = [] ∧ o.args.file = [] ∧ o.args.url = []) from fun x => h x.1)]
      split
      · rfl
      · exact if_pos h
    rw [k o h, k o' h', eu, eo]
    cases e.opens <;> rfl

/-- **C90**. What `-threads` and `-verbose` take: the integer literals of Go that fit into 64 bits, with or without a sign, and the words for truth values; nothing else. -/
theorem C90_values {v : Bytes} : (∀ i : Int, readArgs {} [ascii "-threads", v] = .ok { threads := i } ↔ Number v i) ∧
    (∀ b : Bool, readArgs {} [ascii "-verbose=" ++ v] = .ok { verbose := b } ↔ Boolean v b) ∧
    ((∀ i, ¬ Number v i) → readArgs {} [ascii "-threads", v] = .bad) := by
  have none_bad : parseInt v = none → readArgs {} [ascii "-threads", v] = .bad := fun h =>
    read_next_none (d := "-") (f := .threads) (by decide) (by decide) (by simp only [Opts.set, h]; rfl)
  refine ⟨fun i => ⟨fun h => ?_, fun h => ?_⟩, fun b => ⟨fun h => ?_, fun h => ?_⟩, fun h => none_bad ?_⟩
  · cases hp : parseInt v with
    | none => rw [none_bad hp] at h; cases h
    | some j =>
      have : readArgs {} [ascii "-threads", v] = .ok { threads := j } :=
        read_next (d := "-") (f := .threads) (o := {}) (o' := { threads := j }) (as := []) (by decide) (by decide) (by simp only [Opts.set, hp]; rfl)
      rw [this] at h
      injection h with h
      have := congrArg Opts.threads h
      exact number_iff.mp (hp.trans (congrArg some this))
  · exact read_next (d := "-") (f := .threads) (o := {}) (o' := { threads := i }) (as := []) (by decide) (by decide) (by simp only [Opts.set, number_iff.mpr h]; rfl)
  · cases hp : parseBool v with
    | none =>
      rw [show readArgs {} [ascii "-verbose=" ++ v] = .bad from read_eq_none (d := "-") (f := .verbose) (v := v) (by decide) (by simp only [Opts.set, hp]; rfl)] at h
      cases h
    | some j =>
      have : readArgs {} [ascii "-verbose=" ++ v] = .ok { verbose := j } :=
        read_eq (d := "-") (f := .verbose) (v := v) (o := {}) (o' := { verbose := j }) (as := []) (by decide) (by simp only [Opts.set, hp]; rfl)
      rw [this] at h
      injection h with h
      have := congrArg Opts.verbose h
      exact boolean_iff.mp (hp.trans (congrArg some this))
  · exact read_eq (d := "-") (f := .verbose) (v := v) (o := {}) (o' := { verbose := b }) (as := []) (by decide) (by simp only [Opts.set, boolean_iff.mpr h]; rfl)
  · cases hp : parseInt v with
    | none => rfl
    | some j => exact absurd (number_iff.mp hp) (h j)

/-- **C90**. Decimal notation is understood. -/
theorem C90_threads {n : Nat} (h : n < 2 ^ 63) : Number (natDec n) n := by
  refine number_iff.mp ?_
  by_cases h0 : n = 0
  · subst h0; decide +kernel
  obtain ⟨c, d, e1, hc⟩ := natDec_head n (by omega)
  obtain ⟨-, h2, h3⟩ := natDec_spec n
  rw [e1] at h2 h3 ⊢
  rw [parse_pos h2 hc (by rw [h3]; exact h), h3]

/-- The claim that digits given to `-threads` are a decimal number. -/
def C90DecimalClaim : Prop := ∀ d : Bytes, d ≠ [] → d.all isDigit = true → decVal d < 2 ^ 63 → readArgs {} [ascii "-threads", d] = .ok { threads := decVal d }

/-- **C90**, refuted: with a zero in front they are octal digits; `-threads 010` gives eight threads and `-threads 08` is an error. -/
theorem C90_octal : ¬ C90DecimalClaim ∧ readArgs {} [ascii "-threads", ascii "010"] = .ok { threads := 8 } ∧ readArgs {} [ascii "-threads", ascii "08"] = .bad := by
  have h : readArgs {} [ascii "-threads", ascii "010"] = .ok { threads := 8 } := by decide +kernel
  refine ⟨fun hc => ?_, h, by decide +kernel⟩
  have := hc (ascii "010") (by decide) (by decide) (by decide +kernel)
  rw [h] at this
  injection this with this
  have := congrArg Opts.threads this
  exact absurd this (by decide +kernel)

theorem small_neg {i : Int} (h1 : -2 ^ 60 ≤ i) (h2 : i < 0) : Int64.ofInt (i * 8) < 0 := by
  rw [Int64.lt_iff_toInt_lt, Int64.toInt_ofInt_of_le (by omega) (by omega)]
  show i * 8 < 0
  omega

theorem small_pos {i : Int} (h1 : 0 ≤ i) (h2 : i < 2 ^ 60) : ¬ Int64.ofInt (i * 8) < 0 := by
  rw [Int64.lt_iff_toInt_lt, Int64.toInt_ofInt_of_le (by omega) (by omega)]
  show ¬ i * 8 < 0
  omega

/-- The end of a run that compares. -/
theorem invoke_compare {rows : List Row} {n : Nat} {out : Bytes} {fs1 : FS} (h : invoke e fs as = (.compare rows n out, fs1)) :
    ∃ o, readArgs {} as = .ok o ∧ begin e fs o.args = (.compare rows, fs1) ∧ n = o.threads.toNat ∧ out = o.out ∧ ¬ Int64.ofInt (o.threads * 8) < 0 := by
  unfold invoke at h
  cases hr : readArgs {} as with
  | help => rw [hr] at h; injection h with h _; cases h
  | bad => rw [hr] at h; injection h with h _; cases h
  | ok o =>
    rw [hr] at h
    simp only at h
    rcases hb : begin e fs o.args with ⟨d, fs2⟩
    rw [hb] at h
    cases d with
    | fatal => injection h with h _; cases h
    | «show» u => injection h with h _; cases h
    | compare rows' =>
      simp only at h
      split at h
      · injection h with h _; cases h
      · next hn =>
        injection h with h h2
        injection h with h3 h4 h5
        subst h2 h3 h4 h5
        exact ⟨o, rfl, hb, rfl, rfl, hn⟩

theorem invoke_show {u out : Bytes} {fs1 : FS} (h : invoke e fs as = (.show u out, fs1)) :
    ∃ o, readArgs {} as = .ok o ∧ u = o.ua ∧ out = o.out ∧ fs1 = put fs o.out [] := by
  unfold invoke at h
  cases hr : readArgs {} as with
  | help => rw [hr] at h; injection h with h _; cases h
  | bad => rw [hr] at h; injection h with h _; cases h
  | ok o =>
    rw [hr] at h
    simp only at h
    have hbb := h
    rcases hb : begin e fs o.args with ⟨d, fs2⟩
    rw [hb] at h
    cases d with
    | fatal => injection h with h _; cases h
    | compare rows' => simp only at h; split at h <;> (injection h with h _; cases h)
    | «show» u' =>
      injection h with h h2
      injection h with h3 h4
      subst h2 h3 h4
      refine ⟨o, rfl, ?_⟩
      unfold begin at hb
      split at hb
      · injection hb with hb _; cases hb
      split at hb
      · injection hb with hb _; cases hb
      simp only at hb
      split at hb
      · injection hb with hb h2
        injection hb with hb
        exact ⟨hb.symm, rfl, h2.symm⟩
      split at hb
      · split at hb <;> (injection hb with hb _; cases hb)
      · split at hb
        · injection hb with hb _; cases hb
        · split at hb <;> (injection hb with hb _; cases hb)

theorem read_ok {o o' : Opts} (h : readArgs {} as = .ok o) (h' : readArgs {} as = .ok o') : o = o' := by rw [h] at h'; injection h'

/-- **C90**. A user agent is given and shown: for every complete run, with whatever schedule of the cache's cleaner, the file given by `-out`, or `out.diff.txt`, has the full
report about the last user agent given, and no other file has changed. -/
theorem C90_single {T : Tables} {H : Bytes → UInt64} {lower : Bytes → Bytes} {fs' : FS} {u : Bytes} (hs : Spelled ss as) (hv : Valid ss)
    (hu : last .ua ss = some u) (hne : u ≠ []) (hok : ∀ g ∈ shown, uncached T H g { ua := u } ≠ none) (hsize : 11 * growth T u + modelBound T u < 2 ^ 32)
    (h : Ran T H lower e fs as fs') : ∃ r, FullReport T H u r ∧ fs' = put fs ((last .out ss).getD (ascii "out.diff.txt")) r := by
  obtain ⟨o, hr, ho⟩ := C90_read hs hv
  have hou : o.ua = u := by rw [ho.ua, hu]; rfl
  cases h with
  | «show» hi hreach hf =>
    obtain ⟨o', k1, k2, k3, k4⟩ := invoke_show hi
    cases read_ok hr k1
    subst k4 k3
    rw [k2, hou] at hreach
    exact ⟨_, C72_report hok hsize hreach hf, by rw [fs_put, ho.out]⟩
  | compare hi hreach hf =>
    obtain ⟨o', k1, k2, -⟩ := invoke_compare hi
    cases read_ok hr k1
    unfold begin at k2
    rw [if_neg (show ¬ (o.args.ua = [] ∧ o.args.file = [] ∧ o.args.url = []) from fun h => hne (hou.symm.trans h.1))] at k2
    split at k2
    · injection k2 with k2 _; cases k2
    · simp only at k2
      rw [if_pos (show o.args.ua ≠ [] from fun h => hne (hou.symm.trans h))] at k2
      injection k2 with k2 _; cases k2

/-- **C90** (partial, under the conditions of C66). Rows from a file, which is not the output: for every complete run, whatever the number of threads, the format and the
verbosity, the file given by `-out`, or `out.diff.txt`, has the rows' texts, in some order, and no other file has changed. -/
theorem C90_file_partial {T : Tables} {H : Bytes → UInt64} {lower : Bytes → Bytes} {fs' : FS} {f : Bytes} (hs : Spelled ss as) (hv : Valid ss)
    (hu : (last .ua ss).getD [] = []) (hf : last .file ss = some f) (hne : f ≠ []) (hout : f ≠ (last .out ss).getD (ascii "out.diff.txt")) (h : Ran T H lower e fs as fs') :
    ∃ rows, (fs f).bind e.json = some rows ∧
      ((∀ u u', InRows rows u → InRows rows u' → H u = H u' → u = u') → (∀ r ∈ rows, ∀ g ∈ asked, uncached T H g { ua := r.ua } ≠ none) →
        (∀ r ∈ rows, 10 * growth T r.ua + modelBound T r.ua < 2 ^ 32) → (∀ r ∈ rows, r.model ≠ [] → Once rows r.ua) →
        ∀ truth : Bytes → Got, (∀ r ∈ rows, Truth T H r.ua (truth r.ua)) →
          ∃ l : List Row, l.Perm rows ∧ fs' = put fs ((last .out ss).getD (ascii "out.diff.txt")) (l.flatMap fun r => report lower r (truth r.ua))) := by
  obtain ⟨o, hr, ho⟩ := C90_read hs hv
  have hof : o.file = f := by rw [ho.file, hf]; rfl
  have hou : o.ua = [] := ho.ua.trans hu
  have hne' : o.args.file ≠ o.args.out := by
    show o.file ≠ o.out
    rw [hof, ho.out]; exact hout
  cases h with
  | «show» hi hreach hfin =>
    unfold invoke at hi
    rw [hr] at hi
    simp only at hi
    unfold begin at hi
    rw [if_neg (show ¬ (o.args.ua = [] ∧ o.args.file = [] ∧ o.args.url = []) from fun h => hne (hof.symm.trans h.2.1)),
      if_neg (show ¬ o.args.ua ≠ [] from fun h => h hou), if_pos (show o.args.file ≠ [] from fun h => hne (hof.symm.trans h))] at hi
    split at hi
    · injection hi with hi _; cases hi
    · next heq =>
      split at heq
      · injection heq with heq _; cases heq
      · split at heq <;> (injection heq with heq _; cases heq)
    · split at hi <;> (injection hi with hi _; cases hi)
  | compare hi hreach hfin =>
    obtain ⟨o', k1, k2, k3, k4, -⟩ := invoke_compare hi
    cases read_ok hr k1
    have hff : o.args.file ≠ [] := fun h => hne (hof.symm.trans h)
    obtain ⟨e1, body, b1, b2⟩ := begin_file (a := o.args) hou hff hne' k2
    refine ⟨_, by rw [← hof]; show (fs o.args.file).bind _ = _; rw [b1]; exact b2, fun hH hok hsize hcol truth ht => ?_⟩
    obtain ⟨l, h3, h4⟩ := C66_report_partial hreach hH hok hsize hcol ht hfin
    refine ⟨l, h3, ?_⟩
    rw [h4, e1, k4]
    show put (put fs o.out []) o.out _ = _
    rw [fs_put, ho.out]

theorem invoke_ua {u : Bytes} (hs : Spelled ss as) (hv : Valid ss) (hu : last .ua ss = some u) (hne : u ≠ []) (hopen : e.opens = true) :
    invoke e fs as = (.show u ((last .out ss).getD (ascii "out.diff.txt")), put fs ((last .out ss).getD (ascii "out.diff.txt")) []) := by
  obtain ⟨o, hr, ho⟩ := C90_read hs hv
  have hou : o.ua = u := by rw [ho.ua, hu]; rfl
  unfold invoke
  rw [hr]
  have : begin e fs o.args = (.show u, put fs o.out []) := by
    unfold begin
    rw [if_neg (show ¬ (o.args.ua = [] ∧ o.args.file = [] ∧ o.args.url = []) from fun h => hne (hou.symm.trans h.1)), if_neg (by rw [hopen]; decide),
      if_pos (show o.args.ua ≠ [] from fun h => hne (hou.symm.trans h))]
    show (Doing.show o.ua, _) = _
    rw [hou]
    rfl
  simp only [this, ho.out]

/-- **C90** for the shipped rules: `uaxpl -ua U`, with a user agent below 64 MiB and an output that can be opened, comes to its end exactly if no broken rule is selected for `U`;
then the output has the full report. -/
theorem C90_shipped {H : Bytes → UInt64} {lower : Bytes → Bytes} {u : Bytes} (hs : Spelled ss as) (hv : Valid ss) (hu : last .ua ss = some u) (hne : u ≠ [])
    (hl : u.length < 2 ^ 26) (hopen : e.opens = true) :
    ((∃ fs', Ran Regexp.lib.tables H lower e fs as fs') ↔ ∀ t v, ClientChosen Regexp.lib.tables ClientTypeAll u t v → ¬ UnsafeRule v) ∧
    ∀ fs', Ran Regexp.lib.tables H lower e fs as fs' → ∃ r, FullReport Regexp.lib.tables H u r ∧ fs' = put fs ((last .out ss).getD (ascii "out.diff.txt")) r := by
  have hi := invoke_ua (fs := fs) hs hv hu hne hopen
  have ok : ∀ fs', Ran Regexp.lib.tables H lower e fs as fs' → ∀ t v, ClientChosen Regexp.lib.tables ClientTypeAll u t v → ¬ UnsafeRule v := by
    intro fs' h t v hc hb
    cases h with
    | «show» h hr hf =>
      rw [hi] at h
      injection h with h _
      injection h with h _
      subst h
      exact (C72_shipped_crash hl ⟨t, v, hc, hb⟩ hr).1 hf
    | compare h _ _ => rw [hi] at h; injection h with h _; cases h
  refine ⟨⟨fun ⟨fs', h⟩ => ok fs' h, fun h => ?_⟩, fun fs' h => ?_⟩
  · obtain ⟨s, h1, h2⟩ := C72_ends (T := Regexp.lib.tables) (H := H) (u := u) .init
    rcases h2 with h2 | h2
    · exact ⟨_, .show hi h1 h2⟩
    · rw [(C72_shipped hl h h1).1] at h2; cases h2
  · have hsafe := ok fs' h
    cases h with
    | «show» h hr hf =>
      rw [hi] at h
      injection h with h h2
      injection h with h h3
      subst h h2 h3
      exact ⟨_, (C72_shipped hl hsafe hr).2 hf, fs_put⟩
    | compare h _ _ => rw [hi] at h; injection h with h _; cases h

theorem last_of {pre seg : Bytes} (hs : (47 : UInt8) ∉ seg) : lastSegment (pre ++ 47 :: seg) = some seg := by
  unfold lastSegment
  rw [if_pos (by simp)]
  congr 1
  have ne : ∀ x ∈ seg.reverse, decide (x ≠ 47) = true := fun x hx => decide_eq_true fun h => hs (h ▸ List.mem_reverse.mp hx)
  rw [List.reverse_append, List.reverse_cons, List.append_assoc, List.takeWhile_append_of_pos ne]
  simp

theorem begin_url {a : Args} {pre seg body : Bytes} {rows : List Row} (hu : a.ua = []) (hf : a.file = []) (ho : e.opens = true) (ha : a.url = pre ++ 47 :: seg)
    (hs : (47 : UInt8) ∉ seg) (hout : a.out ≠ ascii "/tmp/uaxpl_" ++ seg) (hn : fs (ascii "/tmp/uaxpl_" ++ seg) = none)
    (hg : e.get a.url = some (200, some body)) (hw : e.write (ascii "/tmp/uaxpl_" ++ seg) body = .ok) (hj : e.json body = some rows) :
    begin e fs a = (.compare rows, put (put fs a.out []) (ascii "/tmp/uaxpl_" ++ seg) body) := by
  unfold begin
  rw [if_neg (fun h => by rw [ha] at h; simp at h), if_neg (by rw [ho]; decide)]
  simp only
  rw [if_neg (fun h => h hu), if_neg (fun h => h hf)]
  unfold fetch
  rw [ha, last_of hs]
  simp only
  unfold cachePath
  rw [fs_ne (Ne.symm hout), if_pos hn]
  unfold download
  rw [← ha, hg]
  simp only [hw, fs_self, if_true, hj]

/-- **C90** (partial, under the conditions of C66). Rows from a URL, `-url http://…/seg`, not downloaded before: for every complete run the output has the reports of the rows the
server gave, in some order, `/tmp/uaxpl_seg` has what the server gave, and no other file has changed. -/
theorem C90_url_partial {T : Tables} {H : Bytes → UInt64} {lower : Bytes → Bytes} {fs' : FS} {pre seg body : Bytes} {rows : List Row} (hs : Spelled ss as) (hv : Valid ss)
    (hu : (last .ua ss).getD [] = []) (hf : (last .file ss).getD [] = []) (hurl : last .url ss = some (pre ++ 47 :: seg)) (hseg : (47 : UInt8) ∉ seg)
    (hout : (last .out ss).getD (ascii "out.diff.txt") ≠ ascii "/tmp/uaxpl_" ++ seg) (hopen : e.opens = true) (hn : fs (ascii "/tmp/uaxpl_" ++ seg) = none)
    (hg : e.get (pre ++ 47 :: seg) = some (200, some body)) (hw : e.write (ascii "/tmp/uaxpl_" ++ seg) body = .ok) (hj : e.json body = some rows)
    (hH : ∀ u u', InRows rows u → InRows rows u' → H u = H u' → u = u') (hok : ∀ r ∈ rows, ∀ g ∈ asked, uncached T H g { ua := r.ua } ≠ none)
    (hsize : ∀ r ∈ rows, 10 * growth T r.ua + modelBound T r.ua < 2 ^ 32) (hcol : ∀ r ∈ rows, r.model ≠ [] → Once rows r.ua)
    {truth : Bytes → Got} (ht : ∀ r ∈ rows, Truth T H r.ua (truth r.ua)) (h : Ran T H lower e fs as fs') :
    ∃ l : List Row, l.Perm rows ∧
      fs' = put (put fs (ascii "/tmp/uaxpl_" ++ seg) body) ((last .out ss).getD (ascii "out.diff.txt")) (l.flatMap fun r => report lower r (truth r.ua)) := by
  obtain ⟨o, hr, ho⟩ := C90_read hs hv
  have hol : o.url = pre ++ 47 :: seg := by rw [ho.url, hurl]; rfl
  have hb : begin e fs o.args = (.compare rows, put (put fs o.out []) (ascii "/tmp/uaxpl_" ++ seg) body) :=
    begin_url (a := o.args) (ho.ua.trans hu) (ho.file.trans hf) hopen hol hseg (fun h => hout (ho.out.symm.trans h)) hn (by show e.get o.url = _; rw [hol]; exact hg) hw hj
  cases h with
  | «show» hi hreach hfin =>
    unfold invoke at hi
    rw [hr] at hi
    simp only [hb] at hi
    split at hi <;> (injection hi with hi _; cases hi)
  | compare hi hreach hfin =>
    obtain ⟨o', k1, k2, k3, k4, -⟩ := invoke_compare hi
    cases read_ok hr k1
    rw [hb] at k2
    injection k2 with k2 k5
    injection k2 with k2
    subst k2 k5 k4
    obtain ⟨l, h3, h4⟩ := C66_report_partial hreach hH hok hsize hcol ht hfin
    refine ⟨l, h3, ?_⟩
    rw [h4, ho.out]
    funext q
    unfold put
    by_cases h1 : q = (last .out ss).getD (ascii "out.diff.txt")
    · rw [if_pos h1, if_pos h1]
    · simp only [if_neg h1]

/-- Rows from a file: the number of threads, and what becomes of it. -/
theorem invoke_file {rows : List Row} {f : Bytes} {i : Int} (hs : Spelled ss as) (hv : Valid ss) (hu : (last .ua ss).getD [] = []) (hf : last .file ss = some f)
    (hne : f ≠ []) (hout : f ≠ (last .out ss).getD (ascii "out.diff.txt")) (hopen : e.opens = true) (hrows : (fs f).bind e.json = some rows)
    (ht : Number ((last .threads ss).getD (ascii "1")) i) :
    invoke e fs as = (if Int64.ofInt (i * 8) < 0 then .crash else .compare rows i.toNat ((last .out ss).getD (ascii "out.diff.txt")),
      put fs ((last .out ss).getD (ascii "out.diff.txt")) []) := by
  obtain ⟨o, hr, ho⟩ := C90_read hs hv
  have hof : o.file = f := by rw [ho.file, hf]; rfl
  have hou : o.ua = [] := ho.ua.trans hu
  have hth : o.threads = i := by
    have := number_iff.mpr ho.threads
    rw [number_iff.mpr ht] at this
    exact (Option.some.inj this).symm
  have hb : begin e fs o.args = (.compare rows, put fs o.out []) := by
    unfold begin
    rw [if_neg (show ¬ (o.args.ua = [] ∧ o.args.file = [] ∧ o.args.url = []) from fun h => hne (hof.symm.trans h.2.1)), if_neg (by rw [hopen]; decide),
      if_neg (show ¬ o.args.ua ≠ [] from fun h => h hou), if_pos (show o.args.file ≠ [] from fun h => hne (hof.symm.trans h))]
    simp only [Opts.args, hof]
    rw [fs_ne (by rw [ho.out]; exact hout), hrows]
  unfold invoke
  rw [hr]
  simp only
  rw [hb, hth, ho.out]
  simp only
  split <;> rfl

/-- **C90**. Rows from a file and a decimal number of threads between 1 and 2^60, or none, which means one: so many workers compare the rows of the file, after the output has
been emptied, and they can always come to an end, unless the library panics. -/
theorem C90_workers {T : Tables} {H : Bytes → UInt64} {lower : Bytes → Bytes} {rows : List Row} {n : Nat} {f : Bytes} (h1 : 1 ≤ n) (h2 : n < 2 ^ 60)
    (hs : Spelled ss as) (hv : Valid ss) (hu : (last .ua ss).getD [] = []) (hf : last .file ss = some f) (hne : f ≠ [])
    (hout : f ≠ (last .out ss).getD (ascii "out.diff.txt")) (hopen : e.opens = true) (hrows : (fs f).bind e.json = some rows)
    (ht : (last .threads ss).getD (ascii "1") = natDec n) :
    invoke e fs as = (.compare rows n ((last .out ss).getD (ascii "out.diff.txt")), put fs ((last .out ss).getD (ascii "out.diff.txt")) []) ∧
    ∀ s : Batch, Batch.Reach T H lower rows n s → ∃ s', Batch.Reach T H lower rows n s' ∧ (s'.cli.Returned ∨ s'.panicked = true) := by
  refine ⟨?_, fun s hr => C66_ends h1 hr⟩
  rw [invoke_file hs hv hu hf hne hout hopen hrows (i := n) (by rw [ht]; exact C90_threads (by omega)), if_neg (small_pos (by omega) (by omega))]
  rfl

/-- **C90**, what a user would not expect: a negative number of threads, down to -2^60, passes the flags; the program panics, after the output has been emptied. -/
theorem C90_negative {rows : List Row} {n : Nat} {f : Bytes} (h1 : 1 ≤ n) (h2 : n ≤ 2 ^ 60)
    (hs : Spelled ss as) (hv : Valid ss) (hu : (last .ua ss).getD [] = []) (hf : last .file ss = some f) (hne : f ≠ [])
    (hout : f ≠ (last .out ss).getD (ascii "out.diff.txt")) (hopen : e.opens = true) (hrows : (fs f).bind e.json = some rows)
    (ht : last .threads ss = some (45 :: natDec n)) : invoke e fs as = (.crash, put fs ((last .out ss).getD (ascii "out.diff.txt")) []) := by
  obtain ⟨c, d, e1, hc⟩ := natDec_head n (by omega)
  obtain ⟨-, h3, h4⟩ := natDec_spec n
  have hp : parseInt (45 :: natDec n) = some (-(n : Int)) := by
    rw [e1] at h3 h4 ⊢
    rw [parse_neg h3 hc (by rw [h4]; omega), h4]
  rw [invoke_file hs hv hu hf hne hout hopen hrows (i := -(n : Int)) (by rw [ht]; exact number_iff.mp hp), if_pos (small_neg (by omega) (by omega))]

/-- **C90**, what a user would not expect: with zero threads and a file with rows the program never ends, and the output stays empty. -/
theorem C90_zero {T : Tables} {H : Bytes → UInt64} {lower : Bytes → Bytes} {rows : List Row} {f : Bytes}
    (hs : Spelled ss as) (hv : Valid ss) (hu : (last .ua ss).getD [] = []) (hf : last .file ss = some f) (hne : f ≠ [])
    (hout : f ≠ (last .out ss).getD (ascii "out.diff.txt")) (hopen : e.opens = true) (hrows : (fs f).bind e.json = some rows) (hr : rows ≠ [])
    (ht : last .threads ss = some (ascii "0")) :
    (invoke e fs as).2 = put fs ((last .out ss).getD (ascii "out.diff.txt")) [] ∧ ∀ fs', ¬ Ran T H lower e fs as fs' := by
  have hi := invoke_file hs hv hu hf hne hout hopen hrows (i := 0) (by rw [ht]; exact number_iff.mp (by decide +kernel))
  rw [if_neg (small_pos (by decide) (by decide))] at hi
  refine ⟨by rw [hi], fun fs' h => ?_⟩
  cases h with
  | «show» h _ _ => rw [hi] at h; injection h with h _; cases h
  | compare h hreach hret =>
    rw [hi] at h
    injection h with h _
    injection h with ha hb _
    subst ha hb
    exact (C48_zero_threads hr (batch_cli hreach)).2 hret

end

/-! ### The hypotheses can be met -/

/-- `-file f --threads=3 -verbose -out o -threads 2 extra` -/
def demoArgs : List Bytes :=
  [ascii "-file", ascii "f", ascii "--threads=3", ascii "-verbose", ascii "-out", ascii "o", ascii "-threads", ascii "2", ascii "extra"]

def demoSettings (t : String) : List (Flag × Bytes) :=
  [(.file, ascii "f"), (.threads, ascii "3"), (.verbose, ascii "true"), (.out, ascii "o"), (.threads, ascii t)]

theorem demo_spelled : Spelled (demoSettings "2") demoArgs :=
  .next (d := "-") (f := .file) (by decide) (by decide) <| .eq (d := "--") (f := .threads) (by decide) <| .verbose (d := "-") (by decide) <|
    .next (d := "-") (f := .out) (by decide) (by decide) <| .next (d := "-") (f := .threads) (by decide) (by decide) <| .operand (.inr (by decide))

theorem demo_valid : Valid (demoSettings "2") := by decide +kernel

example : readArgs {} demoArgs = .ok { file := ascii "f", out := ascii "o", threads := 2, verbose := true } := by decide +kernel

/-- The last setting counts. -/
example : ∃ o, readArgs {} demoArgs = .ok o ∧ Obeys (demoSettings "2") o := C90_read demo_spelled demo_valid

/-- Two workers, as C90_workers says. -/
example : invoke { demoAround with json := fun _ => some Demo.three } (fun _ => some [1]) demoArgs = (.compare Demo.three 2 (ascii "o"), put (fun _ => some [1]) (ascii "o") []) :=
  (C90_workers (T := Demo.tables) (H := fnv1) (lower := id) (n := 2) (f := ascii "f") (by decide) (by decide) demo_spelled demo_valid (by decide) (by decide) (by decide)
    (by decide) rfl rfl (by decide +kernel)).1

/-- `-thread 2` and `-threads two` are refused, `-h` shows the usage. -/
example : readArgs {} [ascii "-file=f", ascii "-thread", ascii "2"] = .bad ∧ readArgs {} [ascii "-file=f", ascii "-threads", ascii "two"] = .bad ∧
    readArgs {} [ascii "-threads"] = .bad ∧ readArgs {} [ascii "-h"] = .help := by decide +kernel

example (e : Around) (fs : FS) : invoke e fs [ascii "-threads", ascii "two"] = (.help, fs) ∨ invoke e fs [ascii "-threads", ascii "two"] = (.usage, fs) := by
  refine C90_refused (fun ss hs hv => ?_) e fs
  obtain ⟨o, ho, -⟩ := C90_read hs hv
  rw [show readArgs {} [ascii "-threads", ascii "two"] = .bad by decide +kernel] at ho
  cases ho

/-- `-threads -1` and `-threads 0`. -/
theorem minus_spelled (t : String) : Spelled [(.file, ascii "f"), (.threads, ascii t)] [ascii "-file", ascii "f", ascii "-threads", ascii t] :=
  .next (d := "-") (f := .file) (by decide) (by decide) <| .next (d := "-") (f := .threads) (by decide) (by decide) .done

example : invoke demoAround (fun _ => some [1]) [ascii "-file", ascii "f", ascii "-threads", ascii "-1"] = (.crash, put (fun _ => some [1]) (ascii "out.diff.txt") []) :=
  C90_negative (n := 1) (rows := [{ ua := [1] }]) (f := ascii "f") (by decide) (by decide) (minus_spelled "-1") (by decide +kernel) (by decide) (by decide) (by decide)
    (by decide +kernel) rfl rfl (by decide +kernel)

example (fs' : FS) : ¬ Ran Demo.tables fnv1 id demoAround (fun _ => some [1]) [ascii "-file", ascii "f", ascii "-threads", ascii "0"] fs' :=
  (C90_zero (rows := [{ ua := [1] }]) (f := ascii "f") (minus_spelled "0") (by decide +kernel) (by decide) (by decide) (by decide)
    (by decide +kernel) rfl rfl (by decide) (by decide +kernel)).2 fs'

/-- `-ua A -format json -ua PHONE -file f`: the phone is shown; the format and the file have no effect. -/
theorem phone_spelled : Spelled [(.ua, ascii "A"), (.format, ascii "json"), (.ua, Demo.phone), (.file, ascii "f")]
    [ascii "-ua", ascii "A", ascii "-format", ascii "json", ascii "-ua", Demo.phone, ascii "-file", ascii "f"] :=
  .next (d := "-") (f := .ua) (by decide) (by decide) <| .next (d := "-") (f := .format) (by decide) (by decide) <|
    .next (d := "-") (f := .ua) (by decide) (by decide) <| .next (d := "-") (f := .file) (by decide) (by decide) .done

theorem phone_valid : Valid [(.ua, ascii "A"), (.format, ascii "json"), (.ua, Demo.phone), (.file, ascii "f")] := by decide +kernel

theorem phone_ran : Ran Demo.tables fnv1 id demoAround (fun _ => none) [ascii "-ua", ascii "A", ascii "-format", ascii "json", ascii "-ua", Demo.phone, ascii "-file", ascii "f"]
    (put (put (fun _ => none) (ascii "out.diff.txt") []) (ascii "out.diff.txt") Demo.single.out) := by
  refine .show ?_ (ticks_reach 60 .init) Demo.single_returned
  have h : readArgs {} [ascii "-ua", ascii "A", ascii "-format", ascii "json", ascii "-ua", Demo.phone, ascii "-file", ascii "f"] =
    .ok { ua := Demo.phone, format := ascii "json", file := ascii "f" } := by decide +kernel
  unfold invoke
  rw [h]
  rfl

example : ∃ r, FullReport Demo.tables fnv1 Demo.phone r ∧
    put (put (fun _ => none) (ascii "out.diff.txt") []) (ascii "out.diff.txt") Demo.single.out = put (fun _ => none) (ascii "out.diff.txt") r :=
  C90_single phone_spelled phone_valid (by decide +kernel) (by decide +kernel) (by decide +kernel) (by decide +kernel) phone_ran

example : invoke demoAround (fun _ => none) [ascii "-ua", ascii "A", ascii "-format", ascii "json", ascii "-ua", Demo.phone, ascii "-file", ascii "f"] =
    invoke demoAround (fun _ => none) [ascii "--ua", Demo.phone] :=
  C90_ignored phone_spelled phone_valid (ss' := [(.ua, Demo.phone)]) (.next (d := "--") (f := .ua) (by decide) (by decide) .done) (by decide +kernel) (by decide +kernel)
    (fun h => absurd h (by decide +kernel)) (fun h => absurd h (by decide +kernel)) (by decide +kernel) (fun h => absurd h (by decide +kernel))

/-- Three rows from a file with one worker, to the end. -/
theorem three_ran : Ran Demo.tables fnv1 id { demoAround with json := fun _ => some Demo.three } (fun _ => some [1]) [ascii "-file", ascii "f", ascii "-threads", ascii "1"]
    (put (put (fun _ => some [1]) (ascii "out.diff.txt") []) (ascii "out.diff.txt") Demo.threeRun.cli.out.flatten) := by
  refine .compare ?_ Demo.three_reach (returned_of (by decide +kernel))
  exact (C90_workers (T := Demo.tables) (H := fnv1) (lower := id) (n := 1) (f := ascii "f") (by decide) (by decide) (minus_spelled "1") (by decide +kernel) (by decide)
    (by decide) (by decide) (by decide +kernel) rfl rfl (by decide +kernel)).1

example : ∃ l : List Row, l.Perm Demo.three ∧
    put (put (fun _ => some [1]) (ascii "out.diff.txt") []) (ascii "out.diff.txt") Demo.threeRun.cli.out.flatten = put (fun _ => some [1]) (ascii "out.diff.txt")
      (l.flatMap fun r => report id r ((fun u => if u = Demo.phone then Demo.phoneGot "10" else Demo.phoneGot "10.1") r.ua)) := by
  obtain ⟨rows, h1, h2⟩ := C90_file_partial (f := ascii "f") (minus_spelled "1") (by decide +kernel) (by decide) (by decide) (by decide) (by decide +kernel) three_ran
  cases h1
  exact h2 (hash_of_list (by decide +kernel)) (by decide +kernel) (by decide +kernel) (by unfold Once; decide +kernel)
    (fun u => if u = Demo.phone then Demo.phoneGot "10" else Demo.phoneGot "10.1") (by
    intro r hr
    simp only [Demo.three, List.mem_cons, List.not_mem_nil, or_false] at hr
    rcases hr with rfl | rfl | rfl
    · exact Demo.phone_truth
    · exact (if_neg (show ¬ Demo.phone2 = Demo.phone by decide +kernel)).symm ▸ Demo.phone2_truth
    · exact (if_neg (show ¬ Demo.phone2 = Demo.phone by decide +kernel)).symm ▸ Demo.phone2_truth)

/-- The shipped rules: a user agent for which the program ends, and one for which it does not. -/
theorem ua_spelled (u : Bytes) : Spelled [(.ua, u)] [ascii "-ua", u] := .next (d := "-") (f := .ua) (by decide) (by decide) .done

theorem ua_valid (u : Bytes) : Valid [(.ua, u)] := fun x hx => by
  cases List.mem_singleton.mp hx
  exact ⟨nofun, nofun⟩

example (fs : FS) : ∃ fs', Ran Regexp.lib.tables fnv1 id demoAround fs [ascii "-ua", buf (pat! "Mozilla/5.0 Chrome/96.0 Safari/537.36")] fs' := by
  refine (C90_shipped (ua_spelled _) (ua_valid _) rfl (by decide +kernel) (by decide +kernel) rfl).1.mpr ?_
  rintro t v ⟨a, z, i, rows, -, -, -, h4, h5⟩
  exact demo_safe rows (List.mem_of_getElem? h4) v h5

example (fs fs' : FS) : ¬ Ran Regexp.lib.tables fnv1 id demoAround fs [ascii "-ua", buf (pat! "RutubeTVBlackAndroid")] fs' := fun h => by
  obtain ⟨t, v, h1, h2⟩ := rutube_chosen
  exact (C90_shipped (ua_spelled _) (ua_valid _) rfl (by decide +kernel) (by decide +kernel) rfl).1.mp ⟨fs', h⟩ t v h1 h2

/-- Three rows from a server. -/
example : ∃ l : List Row, l.Perm Demo.three ∧
    put (put (put (fun _ => none) (ascii "out.diff.txt") []) (ascii "/tmp/uaxpl_rows") (ascii "http://a/rows")) (ascii "out.diff.txt") Demo.threeRun.cli.out.flatten =
      put (put (fun _ => none) (ascii "/tmp/uaxpl_rows") (ascii "http://a/rows")) (ascii "out.diff.txt")
        (l.flatMap fun r => report id r ((fun u => if u = Demo.phone then Demo.phoneGot "10" else Demo.phoneGot "10.1") r.ua)) := by
  have hs : Spelled [(.url, ascii "http://a/rows")] [ascii "-url=http://a/rows"] := .eq (d := "-") (f := .url) (by decide) .done
  have hr : readArgs {} [ascii "-url=http://a/rows"] = .ok { url := ascii "http://a/rows" } := by decide +kernel
  have hc : ascii "/tmp/uaxpl_rows" = ascii "/tmp/uaxpl_" ++ ascii "rows" := by decide +kernel
  have hi : invoke { demoAround with json := fun _ => some Demo.three } (fun _ => none) [ascii "-url=http://a/rows"] =
      (.compare Demo.three 1 (ascii "out.diff.txt"), put (put (fun _ => none) (ascii "out.diff.txt") []) (ascii "/tmp/uaxpl_rows") (ascii "http://a/rows")) := by
    unfold invoke
    rw [hr]
    simp only
    rw [begin_url (pre := ascii "http://a") (seg := ascii "rows") (body := ascii "http://a/rows") (rows := Demo.three) rfl rfl rfl (by decide +kernel) (by decide)
      (by decide +kernel) rfl rfl rfl rfl]
    simp only
    rw [if_neg (small_pos (by decide) (by decide)), hc]
    rfl
  have hrun : Ran Demo.tables fnv1 id { demoAround with json := fun _ => some Demo.three } (fun _ => none) [ascii "-url=http://a/rows"]
    (put (put (put (fun _ => none) (ascii "out.diff.txt") []) (ascii "/tmp/uaxpl_rows") (ascii "http://a/rows")) (ascii "out.diff.txt") Demo.threeRun.cli.out.flatten) :=
    .compare hi Demo.three_reach (returned_of (by decide +kernel))
  have := C90_url_partial (pre := ascii "http://a") (seg := ascii "rows") (body := ascii "http://a/rows") (rows := Demo.three)
    (truth := fun u => if u = Demo.phone then Demo.phoneGot "10" else Demo.phoneGot "10.1") hs (by decide +kernel) (by decide) (by decide) (by decide +kernel) (by decide)
    (by decide +kernel) rfl rfl (by show some (200, some _) = _; decide +kernel) rfl rfl (hash_of_list (by decide +kernel)) (by decide +kernel) (by decide +kernel)
    (by unfold Once; decide +kernel) (by
      intro r hr
      simp only [Demo.three, List.mem_cons, List.not_mem_nil, or_false] at hr
      rcases hr with rfl | rfl | rfl
      · exact Demo.phone_truth
      · exact (if_neg (show ¬ Demo.phone2 = Demo.phone by decide +kernel)).symm ▸ Demo.phone2_truth
      · exact (if_neg (show ¬ Demo.phone2 = Demo.phone by decide +kernel)).symm ▸ Demo.phone2_truth) hrun
  rw [hc]
  rw [hc] at this
  exact this

/-- Notations of numbers that are understood, and some that are not. -/
example : readArgs {} [ascii "-threads", ascii "-0x_1F"] = .ok { threads := -31 } ∧ readArgs {} [ascii "-threads", ascii "1_000"] = .ok { threads := 1000 } :=
  ⟨C90_values.1 _ |>.mpr (.minus (.hex (p := "0x_") (ds := [1, 15]) (by decide) (.next (by decide) (by decide) (.one (by decide) (by decide)))) (by decide)),
    C90_values.1 _ |>.mpr (.bare (.decimal (ds := [1, 0, 0, 0]) (.under (by decide) (by decide) (.next (by decide) (by decide) (.next (by decide) (by decide)
      (.one (by decide) (by decide))))) (by decide)) (by decide))⟩

example : ∀ v ∈ ["", "-", "1__0", "_1", "1_", "0x", "9223372036854775808", "1.0", " 1", "12a"], readArgs {} [ascii "-threads", ascii v] = .bad := by decide +kernel

end Verif.Cli

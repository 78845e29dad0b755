import Verif.Model.Fetch
import Verif.Props.Batch
/-
C77: the input and the output of the comparison tool.
-/
namespace Verif.Cli

open Tool (FS Written put)

theorem fs_self {fs : FS} {p x : Bytes} : put fs p x p = some x := by unfold put; rw [if_pos rfl]

theorem fs_ne {fs : FS} {p q x : Bytes} (h : q ≠ p) : put fs p x q = fs q := by unfold put; rw [if_neg h]

theorem begin_file {e : Around} {fs fs1 : FS} {a : Args} {rows : List Row} (hu : a.ua = []) (hf : a.file ≠ []) (hne : a.file ≠ a.out)
    (hb : begin e fs a = (.compare rows, fs1)) : fs1 = put fs a.out [] ∧ ∃ body, fs a.file = some body ∧ e.json body = some rows := by
  unfold begin at hb
  rw [if_neg (show ¬ (a.ua = [] ∧ a.file = [] ∧ a.url = []) from fun h => hf h.2.1)] at hb
  by_cases ho : e.opens = false
  · rw [if_pos ho] at hb; injection hb with hb _; cases hb
  rw [if_neg ho] at hb
  rw [if_neg (show ¬ a.ua ≠ [] from fun h => h hu), if_pos hf, fs_ne hne] at hb
  cases e1 : fs a.file with
  | none => rw [e1] at hb; injection hb with hb _; cases hb
  | some body =>
    rw [e1] at hb
    simp only [Option.bind_some] at hb
    cases e2 : e.json body with
    | none => rw [e2] at hb; injection hb with hb _; cases hb
    | some rows' =>
      rw [e2] at hb
      injection hb with hb h2
      injection hb with hb
      subst hb h2
      exact ⟨rfl, body, rfl, e2⟩

theorem fs_put {fs : FS} {p x y : Bytes} : put (put fs p x) p y = put fs p y := by
  funext q
  unfold put
  split <;> rfl

/-- **C77**. `uaxpl -file f -out o`, with two different files: the rows compared are those in `f`; at the end `o` has the text of the rows, in
some order, and no other file has changed. -/
theorem C77_file {lower : Bytes → Bytes} {e : Around} {fs fs' : FS} {a : Args} (hu : a.ua = []) (hf : a.file ≠ []) (hne : a.file ≠ a.out)
    (h : Compared lower e fs a fs') :
    ∃ body rows, fs a.file = some body ∧ e.json body = some rows ∧
      ∃ l : List (Row × Got), (l.map (·.1)).Perm rows ∧ fs' = put fs a.out (l.flatMap fun x => report lower x.1 x.2) := by
  obtain ⟨hb, hr, hret⟩ := h
  obtain ⟨e1, body, h1, h2⟩ := begin_file hu hf hne hb
  obtain ⟨l, h3, h4⟩ := C63_report hr hret
  exact ⟨body, _, h1, h2, l, h3, by rw [e1, fs_put, h4]⟩

/-- **C77** (partial). The same with the library and its cache: under the conditions of C66 the output file has, in some order, the texts of the rows
of the input file as they are with the answers of new contexts without a cache. -/
theorem C77_whole_partial {T : Tables} {H : Bytes → UInt64} {lower : Bytes → Bytes} {e : Around} {fs fs1 : FS} {a : Args} {rows : List Row} {s : Batch}
    (hu : a.ua = []) (hf : a.file ≠ []) (hne : a.file ≠ a.out) (hb : begin e fs a = (.compare rows, fs1))
    (hr : Batch.Reach T H lower rows a.threads s) (hret : s.cli.Returned)
    (hH : ∀ u u', InRows rows u → InRows rows u' → H u = H u' → u = u') (hok : ∀ r ∈ rows, ∀ g ∈ asked, uncached T H g { ua := r.ua } ≠ none)
    (hsize : ∀ r ∈ rows, 10 * growth T r.ua + modelBound T r.ua < 2 ^ 32) (hcol : ∀ r ∈ rows, r.model ≠ [] → Once rows r.ua)
    {truth : Bytes → Got} (ht : ∀ r ∈ rows, Truth T H r.ua (truth r.ua)) :
    ∃ l : List Row, (fs a.file).bind e.json = some rows ∧ l.Perm rows ∧ put fs1 a.out s.cli.out.flatten = put fs a.out (l.flatMap fun r => report lower r (truth r.ua)) := by
  obtain ⟨e1, body, h1, h2⟩ := begin_file hu hf hne hb
  obtain ⟨l, h3, h4⟩ := C66_report_partial hr hH hok hsize hcol ht hret
  exact ⟨l, by rw [h1]; exact h2, h3, by rw [e1, fs_put, h4]⟩

theorem all_takeWhile {α : Type} {q : α → Bool} : ∀ (l : List α) {x}, x ∈ l.takeWhile q → q x = true
  | a :: l, x, h => by
    rw [List.takeWhile_cons] at h
    split at h
    · next hq =>
      cases h with
      | head => exact hq
      | tail _ h => exact all_takeWhile l h
    · cases h

/-- The text after the last slash has no slash: downloads stay in `/tmp`. -/
theorem lastSegment_spec {uri seg : Bytes} (h : lastSegment uri = some seg) : (47 : UInt8) ∉ seg ∧ ∃ pre, uri = pre ++ 47 :: seg := by
  unfold lastSegment at h
  split at h
  · next hm =>
    injection h with h
    subst h
    refine ⟨fun hc => ?_, ?_⟩
    · rw [List.mem_reverse] at hc
      have := all_takeWhile _ hc
      simp at this
    · have key : ∀ l : Bytes, (47 : UInt8) ∈ l → ∃ post, l = l.takeWhile (· ≠ 47) ++ 47 :: post := by
        intro l
        induction l with
        | nil => intro h; cases h
        | cons c l ih =>
          intro h
          by_cases hc : c = 47
          · subst hc; exact ⟨l, by simp⟩
          · obtain ⟨post, e⟩ := ih ((List.mem_cons.mp h).resolve_left fun h => hc h.symm)
            refine ⟨post, ?_⟩
            rw [List.takeWhile_cons_of_pos (by simpa using hc), List.cons_append, ← e]
      obtain ⟨post, e⟩ := key uri.reverse (List.mem_reverse.mpr hm)
      refine ⟨post.reverse, ?_⟩
      have := congrArg List.reverse e
      rw [List.reverse_reverse, List.reverse_append, List.reverse_cons, List.append_assoc] at this
      exact this
  · cases h

theorem download_ne {e : Around} {fs : FS} {uri path p : Bytes} (h : p ≠ path) : download e fs uri path p = fs p := by
  unfold download
  rcases e.get uri with _ | ⟨st, _ | body⟩
  · rfl
  · rfl
  · simp only
    split
    · cases e.write path body with
      | ok => exact fs_ne h
      | refused => rfl
      | short n => exact fs_ne h
    · rfl

/-- **C77**. Whatever happens, a run changes only the output file and, given a URL with last segment `seg`, the file `/tmp/uaxpl_seg`, and the
latter only if it was not there (or is the output itself); `seg` has no slash. -/
theorem C77_frame (e : Around) (fs : FS) (a : Args) {p : Bytes} (h : (begin e fs a).2 p ≠ fs p) :
    p = a.out ∨ a.ua = [] ∧ a.file = [] ∧ fs p = none ∧ ∃ pre seg, a.url = pre ++ 47 :: seg ∧ (47 : UInt8) ∉ seg ∧ p = ascii "/tmp/uaxpl_" ++ seg := by
  by_cases hp : p = a.out
  · exact .inl hp
  refine .inr ?_
  unfold begin at h
  split at h
  · exact absurd rfl h
  split at h
  · exact absurd rfl h
  simp only at h
  split at h
  · exact absurd (fs_ne hp) h
  next hu =>
  split at h
  · split at h <;> exact absurd (fs_ne hp) h
  next hf =>
  have h' : (fetch e (put fs a.out []) a.url).2 p ≠ fs p := by
    rcases hq : fetch e (put fs a.out []) a.url with ⟨b, fs2⟩
    rw [hq] at h
    cases b with
    | none => exact h
    | some body =>
      simp only at h
      split at h <;> exact h
  unfold fetch at h'
  cases hs : lastSegment a.url with
  | none => rw [hs] at h'; exact absurd (fs_ne hp) h'
  | some seg =>
    rw [hs] at h'
    simp only at h'
    split at h'
    next hn =>
      obtain ⟨h1, pre, h2⟩ := lastSegment_spec hs
      have hpp : p = cachePath seg := by
        refine Classical.byContradiction fun hc => h' ?_
        exact download_ne hc |>.trans (fs_ne hp)
      refine ⟨Classical.byContradiction hu, Classical.byContradiction hf, ?_, pre, seg, h2, h1, hpp⟩
      rw [← hpp, fs_ne hp] at hn
      exact hn
    · exact absurd (fs_ne hp) h'

/-- Runs one after the other; nobody else touches the files. -/
def begins : FS → List (Around × Args) → FS
  | fs, [] => fs
  | fs, (e, a) :: l => begins (begin e fs a).2 l

/-- **C77** (partial). Downloads happen once: if the file for the last segment is not there and the server answers with status 200 and `body`, which can
be written, then the run reads `body`, and so does every later run with a URL with the same last segment, whatever was run before it and
whatever the network says, unless some run used that file as its output. -/
theorem C77_download_partial {e : Around} {fs : FS} {a : Args} {pre seg body : Bytes} (hu : a.ua = []) (hf : a.file = []) (ho : e.opens = true)
    (ha : a.url = pre ++ 47 :: seg) (hs : (47 : UInt8) ∉ seg) (hn : fs (ascii "/tmp/uaxpl_" ++ seg) = none) (hout : a.out ≠ ascii "/tmp/uaxpl_" ++ seg)
    (hg : e.get a.url = some (200, some body)) (hw : e.write (ascii "/tmp/uaxpl_" ++ seg) body = .ok) :
    ((begin e fs a).1 = match e.json body with | some rows => .compare rows | none => .fatal) ∧
    ∀ (l : List (Around × Args)), (∀ x ∈ l, x.2.out ≠ ascii "/tmp/uaxpl_" ++ seg) →
      ∀ (e' : Around) (a' : Args) pre', e'.opens = true → a'.ua = [] → a'.file = [] → a'.url = pre' ++ 47 :: seg → a'.out ≠ ascii "/tmp/uaxpl_" ++ seg →
        (begin e' (begins (begin e fs a).2 l) a').1 = match e'.json body with | some rows => .compare rows | none => .fatal := by
  have seg_of : ∀ pre : Bytes, lastSegment (pre ++ 47 :: seg) = some seg := by
    intro pre
    unfold lastSegment
    rw [if_pos (by simp)]
    congr 1
    have ne : ∀ x ∈ seg.reverse, decide (x ≠ 47) = true := fun x hx => decide_eq_true fun h => hs (h ▸ List.mem_reverse.mp hx)
    rw [List.reverse_append, List.reverse_cons, List.append_assoc, List.takeWhile_append_of_pos ne]
    simp
  -- a run with the file in place
  have cached : ∀ (e' : Around) (fs' : FS) (a' : Args) (pre' : Bytes), e'.opens = true → a'.ua = [] → a'.file = [] → a'.url = pre' ++ 47 :: seg →
      a'.out ≠ ascii "/tmp/uaxpl_" ++ seg → fs' (ascii "/tmp/uaxpl_" ++ seg) = some body →
      (begin e' fs' a').1 = match e'.json body with | some rows => .compare rows | none => .fatal := by
    intro e' fs' a' pre' h1 h2 h3 h4 h5 h6
    unfold begin
    rw [if_neg (fun h => by rw [h4] at h; simp at h), if_neg (by rw [h1]; decide)]
    simp only
    rw [if_neg (fun h => h h2), if_neg (fun h => h h3)]
    unfold fetch
    rw [h4, seg_of]
    simp only
    unfold cachePath
    rw [fs_ne (Ne.symm h5), if_neg (by rw [h6]; simp), fs_ne (Ne.symm h5), h6]
    simp only
    cases e'.json body <;> rfl
  have first : (begin e fs a).1 = (match e.json body with | some rows => .compare rows | none => .fatal) ∧ (begin e fs a).2 (ascii "/tmp/uaxpl_" ++ seg) = some body := by
    unfold begin
    rw [if_neg (fun h => by rw [ha] at h; simp at h), if_neg (by rw [ho]; decide)]
    simp only
    rw [if_neg (fun h => h hu), if_neg (fun h => h hf)]
    unfold fetch
    rw [ha, seg_of]
    simp only
    unfold cachePath
    rw [fs_ne (Ne.symm hout), if_pos hn]
    unfold download
    rw [← ha, hg]
    simp only [hw, fs_self, if_true]
    cases e.json body <;> exact ⟨rfl, fs_self⟩
  refine ⟨first.1, fun l hl e' a' pre' h1 h2 h3 h4 h5 => cached e' _ a' pre' h1 h2 h3 h4 h5 ?_⟩
  have keep : ∀ (l : List (Around × Args)) (fs' : FS), (∀ x ∈ l, x.2.out ≠ ascii "/tmp/uaxpl_" ++ seg) → fs' (ascii "/tmp/uaxpl_" ++ seg) = some body →
      begins fs' l (ascii "/tmp/uaxpl_" ++ seg) = some body := by
    intro l
    induction l with
    | nil => exact fun _ _ h => h
    | cons x l ih =>
      intro fs' hl h
      refine ih _ (fun y hy => hl y (.tail _ hy)) ?_
      refine Classical.byContradiction fun hc => ?_
      rcases C77_frame x.1 fs' x.2 (p := ascii "/tmp/uaxpl_" ++ seg) (by rw [h]; exact hc) with h' | ⟨_, _, h', _⟩
      · exact hl x (.head _) h'.symm
      · rw [h] at h'; cases h'
  exact keep l _ hl first.2

/-- **C77**. A download that fails, or whose answer has another status, ends the run with an error and can be tried again: no file is made. The same
goes for a URL without a slash, for which nothing is asked. -/
theorem C77_failed {e : Around} {fs : FS} {a : Args} (hu : a.ua = []) (hf : a.file = [])
    (h : (47 : UInt8) ∉ a.url ∨ ∃ pre seg, a.url = pre ++ 47 :: seg ∧ (47 : UInt8) ∉ seg ∧ fs (ascii "/tmp/uaxpl_" ++ seg) = none ∧ a.out ≠ ascii "/tmp/uaxpl_" ++ seg ∧
      ∀ body, e.get a.url ≠ some (200, some body)) :
    (begin e fs a).1 = .fatal ∧ ∀ p, p ≠ a.out → (begin e fs a).2 p = fs p := by
  unfold begin
  split
  · exact ⟨rfl, fun _ _ => rfl⟩
  split
  · exact ⟨rfl, fun _ _ => rfl⟩
  simp only
  rw [if_neg (fun h => h hu), if_neg (fun h => h hf)]
  suffices hq : fetch e (put fs a.out []) a.url = (none, put fs a.out []) by
    rw [hq]
    exact ⟨rfl, fun p hp => fs_ne hp⟩
  unfold fetch
  rcases h with h | ⟨pre, seg, ha, hs, hn, hout, hg⟩
  · rw [show lastSegment a.url = none from by unfold lastSegment; rw [if_neg h]]
  · have hl : lastSegment a.url = some seg := by
      unfold lastSegment
      rw [ha, if_pos (by simp)]
      congr 1
      have ne : ∀ x ∈ seg.reverse, decide (x ≠ 47) = true := fun x hx => decide_eq_true fun h => hs (h ▸ List.mem_reverse.mp hx)
      rw [List.reverse_append, List.reverse_cons, List.append_assoc, List.takeWhile_append_of_pos ne]
      simp
    rw [hl]
    simp only
    have hd : download e (put fs a.out []) a.url (cachePath seg) = put fs a.out [] := by
      unfold download
      rcases hb : e.get a.url with _ | ⟨st, _ | body⟩
      · rfl
      · rfl
      · simp only
        split
        · next hst => rw [hst] at hb; exact absurd hb (hg body)
        · rfl
    have hn' : put fs a.out [] (cachePath seg) = none := by
      unfold cachePath
      rw [fs_ne (Ne.symm hout), hn]
    rw [if_pos hn', hd, hn']

/-! ### What does not hold -/

/-- Surroundings in which every URL serves its own text and JSON rows are the user agents of the text. -/
def demoAround : Around where
  opens := true
  get := fun u => some (200, some u)
  write := fun _ _ => .ok
  json := fun b => if b = [] then none else some [{ ua := b }]

/-- **C77**, refuted in general.

1. The rows compared need not be those the URL serves: a file downloaded before from another host is used if the last segments agree.
2. If the output is the input file, the input is emptied before it is read: the run fails and the rows are lost.
3. A download that breaks off while being written leaves a part of the rows in `/tmp`; it is used, in this run and in later ones, as if it
   were all. -/
theorem C77_refuted :
    (∃ a a' : Args, (begin demoAround (begin demoAround (fun _ => none) a).2 a').1 = .compare [{ ua := a.url }] ∧ demoAround.get a'.url = some (200, some a'.url) ∧
      a'.url ≠ a.url) ∧
    (∃ (fs : FS) (a : Args), a.ua = [] ∧ a.file ≠ [] ∧ ((fs a.file).bind demoAround.json).isSome = true ∧ (begin demoAround fs a).1 = .fatal ∧
      (begin demoAround fs a).2 a.file = some []) ∧
    (∃ (e : Around) (a : Args) (part : Bytes), e.get a.url = some (200, some a.url) ∧ part ≠ a.url ∧ (begin e (fun _ => none) a).1 = .compare [{ ua := part }] ∧
      (begin demoAround (begin e (fun _ => none) a).2 a).1 = .compare [{ ua := part }]) := by
  refine ⟨⟨{ url := ascii "http://a/data.json" }, { url := ascii "http://b/data.json" }, ?_, rfl, by decide +kernel⟩,
    ⟨fun _ => some (ascii "x"), { file := ascii "f", out := ascii "f" }, rfl, by decide +kernel, by decide +kernel, ?_, by decide +kernel⟩,
    ⟨{ demoAround with write := fun _ _ => .short 3 }, { url := ascii "http://a/data.json" }, ascii "htt", rfl, by decide +kernel, ?_, ?_⟩⟩ <;> rfl

/-! ### The hypotheses can be met -/

example : (begin demoAround (fun _ => none) { url := ascii "http://a/data.json" }).1 = .compare [{ ua := ascii "http://a/data.json" }] :=
  (C77_download_partial (e := demoAround) (fs := fun _ => none) (a := { url := ascii "http://a/data.json" }) (pre := ascii "http://a") (seg := ascii "data.json")
    (body := ascii "http://a/data.json") rfl rfl rfl (by decide +kernel) (by decide) rfl (by decide +kernel) rfl rfl).1

/-- A complete run over a file with one row that differs in one column. -/
example : ∃ fs', Compared id { demoAround with json := fun _ => some [{ ua := ascii "x", brand := ascii "Acer" }] } (fun _ => some (ascii "rows"))
      { file := ascii "f", out := ascii "o" } fs' ∧ fs' (ascii "o") = some (ascii "x\n* brand mismatch: need 'Acer' got 'Asus'\n\n") := by
  let r : Row := { ua := ascii "x", brand := ascii "Acer" }
  let g : Got := ⟨[], [], [], [], [], [], ascii "Asus", [], [], []⟩
  have s1 := (CReach.init (lower := id) (rows := [r]) (threads := 1)).step (.send (r := r) rfl rfl (by decide))
  have s2 := s1.step (.close rfl rfl)
  have s3 := s2.step (.recv (pre := []) (post := []) rfl rfl)
  have s4 := s3.step (.bad (pre := []) (post := []) g rfl (by decide +kernel))
  have s5 := s4.step (.lock (pre := []) (post := []) rfl rfl)
  have s6 := s5.step (.write (pre := []) (post := []) rfl)
  have s7 := s6.step (.write (pre := []) (post := []) rfl)
  have s8 := s7.step (.write (pre := []) (post := []) rfl)
  have s9 := s8.step (.write (pre := []) (post := []) rfl)
  have s10 := s9.step (.write (pre := []) (post := []) rfl)
  have s11 := s10.step (.write (pre := []) (post := []) rfl)
  have s12 := s11.step (.unlock (pre := []) (post := []) rfl)
  have s13 := s12.step (.count (pre := []) (post := []) rfl)
  have s14 := s13.step (.stop (pre := []) (post := []) rfl rfl rfl)
  refine ⟨_, .mk (a := { file := ascii "f", out := ascii "o" }) (rows := [r]) rfl s14 ⟨rfl, by simp⟩, by decide +kernel⟩

/-- The rows of `Demo.three` from a file, with the library: the report of the run that Props/Batch shows. -/
example : ∃ l : List Row, l.Perm Demo.three ∧
    put (begin { demoAround with json := fun _ => some Demo.three } (fun _ => some [1]) { file := ascii "f" }).2 (ascii "out.diff.txt") Demo.threeRun.cli.out.flatten =
      put (fun _ => some [1]) (ascii "out.diff.txt")
        (l.flatMap fun r => report id r ((fun u => if u = Demo.phone then Demo.phoneGot "10" else Demo.phoneGot "10.1") r.ua)) := by
  obtain ⟨l, _, h⟩ := C77_whole_partial (e := { demoAround with json := fun _ => some Demo.three }) (fs := fun _ => some [1]) (a := { file := ascii "f" })
    (truth := fun u => if u = Demo.phone then Demo.phoneGot "10" else Demo.phoneGot "10.1") rfl (by decide) (by decide +kernel) rfl Demo.three_reach
    (returned_of (by decide +kernel))
    (hash_of_list (by decide +kernel)) (by decide +kernel) (by decide +kernel) (by unfold Once; decide +kernel)
    (by
      intro r hr
      simp only [Demo.three, List.mem_cons, List.not_mem_nil, or_false] at hr
      rcases hr with rfl | rfl | rfl
      · exact Demo.phone_truth
      · exact (if_neg (show ¬ Demo.phone2 = Demo.phone by decide +kernel)).symm ▸ Demo.phone2_truth
      · exact (if_neg (show ¬ Demo.phone2 = Demo.phone by decide +kernel)).symm ▸ Demo.phone2_truth)
  exact ⟨l, h⟩

end Verif.Cli

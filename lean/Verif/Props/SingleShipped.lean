import Verif.Props.Single
import Verif.Proofs.SingleCrash
import Verif.Props.ShippedPanic
/-
C72 for the shipped tables: what `uaxpl -ua U` does for every user agent of less than 64 MiB.
-/
namespace Verif.Cli

section
variable {T : Tables} {H : Bytes → UInt64} {u : Bytes}

/-- What is written before the first question about the client. -/
def headText (u : Bytes) : Bytes := ascii "origin ua: " ++ u ++ ascii "\nclient:\n"

theorem head_lines : linesOf T H u [.userAgent] = headText u := by
  simp only [linesOf, List.flatMap_cons, List.flatMap_nil, uncached_userAgent, written, line, printS, headText]
  rw [show ascii "\nclient:\n" = ascii "\n" ++ ascii "client:\n" by decide +kernel]
  simp only [List.append_assoc, List.append_nil]

/-- C72, when GetClientType panics on the user agent: the tool never returns, the file never holds more than the user agent and the heading, and holds
just that when the tool has crashed. -/
theorem C72_crash (hn : uncached T H .clientType { ua := u } = none) (hsize : 11 * growth T u + modelBound T u < 2 ^ 32)
    {s : Single} (hr : Single.Reach T H u s) : ¬ s.Returned ∧ s.out <+: headText u ∧ (s.panicked = true → s.out = headText u) := by
  have I := crash_inv hn hsize hr
  refine ⟨?_, ?_, fun h => (I.dead h).trans head_lines⟩
  · rintro ⟨-, h1, c, h2⟩
    have := I.left
    rw [h1, h2] at this
    simp [running] at this
  · have hph := I.ph
    have hl := I.left
    generalize s.out = out at hph ⊢
    generalize s.sys.threads 0 = th at hph hl
    generalize s.todo = todo at hph hl
    cases hph with
    | start => exact List.nil_prefix
    | setting => exact List.nil_prefix
    | @asking c gs gs' hg =>
      have h9 : 9 ≤ gs'.tail.length := by
        simp only [running, List.length_map] at hl
        rw [List.length_tail]
        omega
      rcases gs' with _ | ⟨g, gs'⟩
      · simp at h9
      · rcases first_two hg h9 with ⟨rfl, -⟩ | ⟨rfl, -⟩
        · exact List.nil_prefix
        · rw [head_lines]; exact List.prefix_rfl
    | @waiting th gs g gs' hg hs hth =>
      have h9 : 9 ≤ gs'.length := by
        have : running th ≤ 1 := by cases th <;> simp [running]
        simp only [List.length_map] at hl
        omega
      rcases first_two hg h9 with ⟨rfl, -⟩ | ⟨rfl, -⟩
      · exact List.nil_prefix
      · rw [head_lines]; exact List.prefix_rfl

/-- The tool comes to an end: from every state of a run one can be reached in which it has returned or crashed. -/
theorem C72_ends {s : Single} (hr : Single.Reach T H u s) : ∃ s', Single.Reach T H u s' ∧ (s'.Returned ∨ s'.panicked = true) := by
  have key : ∀ (n : Nat) (s : Single), Single.Reach T H u s → SCost s n → ∃ s', Single.Reach T H u s' ∧ (s'.Returned ∨ s'.panicked = true) := by
    intro n
    induction n using Nat.strongRecOn with
    | ind n ih =>
      intro s hr hc
      by_cases hp : s.panicked = true
      · exact ⟨s, hr, .inr hp⟩
      have hp : s.panicked = false := by simpa using hp
      by_cases hf : s.Returned
      · exact ⟨s, hr, .inl hf⟩
      obtain ⟨s', st, hn⟩ := C72_progress hr hf hp
      rcases single_down hr st with h | h | h
      · exact absurd h hn
      · exact ⟨s', hr.step st, .inr h⟩
      · obtain ⟨n', h1, h2⟩ := h n hc
        exact ih n' h1 s' (hr.step st) h2
  obtain ⟨n, hn⟩ := scost_exists hr
  exact key n s hr hn

/-- The comparison comes to an end: from every state of a run with at least one thread, one can be reached in which it has returned or crashed. -/
theorem C66_ends {lower : Bytes → Bytes} {rows : List Row} {threads : Nat} (hth : 1 ≤ threads) {s : Batch} (hr : Batch.Reach T H lower rows threads s) :
    ∃ s', Batch.Reach T H lower rows threads s' ∧ (s'.cli.Returned ∨ s'.panicked = true) := by
  classical
  refine Classical.byContradiction fun hno => ?_
  have hstep : ∀ s : { s // Batch.Reach T H lower rows threads s }, ∃ s' : { s // Batch.Reach T H lower rows threads s },
      Batch.Step T H lower rows threads s.1 s'.1 ∧ ¬ s.1.CleanOnly s'.1 := by
    rintro ⟨s, hs⟩
    have hn : ¬ s.cli.Returned := fun h => hno ⟨s, hs, .inl h⟩
    have hp : s.panicked = false := by
      cases h : s.panicked with
      | false => rfl
      | true => exact absurd ⟨s, hs, .inr h⟩ hno
    obtain ⟨s', st, h⟩ := C66_no_deadlock hth hs hn hp
    exact ⟨⟨s', hs.step st⟩, st, h⟩
  let next : { s // Batch.Reach T H lower rows threads s } → { s // Batch.Reach T H lower rows threads s } := fun s => (hstep s).choose
  let f : Nat → { s // Batch.Reach T H lower rows threads s } := fun n => Nat.rec ⟨s, hr⟩ (fun _ x => next x) n
  obtain ⟨N, hN⟩ := C66_terminates (fun n => (f n).1) hr (fun n => (hstep (f n)).choose_spec.1)
  exact (hstep (f N)).choose_spec.2 (hN N (Nat.le_refl _))

end

section
open Data
variable {H : Bytes → UInt64} {u : Bytes}

theorem shipped_size (hl : u.length < 2 ^ 26) : 11 * growth Regexp.lib.tables u + modelBound Regexp.lib.tables u < 2 ^ 32 := by
  have h1 : modelBound Regexp.lib.tables u ≤ 49 * (u.length + 1) := Nat.mul_le_mul_right _ (shipped_templates Regexp.lib)
  have h2 : growth Regexp.lib.tables u = 2915 + u.length := by
    show (buf orBuf).length + _ = _
    rw [buf_length, orBuf_len]
  omega

theorem shipped_ok (hl : u.length < 2 ^ 26) (hs : ∀ t v, ClientChosen Regexp.lib.tables ClientTypeAll u t v → ¬ UnsafeRule v) (g : Getter) :
    uncached Regexp.lib.tables H g { ua := u } ≠ none := by
  by_cases hg : g = .model
  · subst hg; exact C27_model Regexp.lib hl
  · intro h
    obtain ⟨-, t, v, h1, h2⟩ := (C27_exact Regexp.lib (q := { ua := u }) (by show u.length < _; omega) hg).mp h
    exact hs t v h1 h2

/-- C72 for the shipped tables, when the rule selected for the client is none of those with one of the eight broken regexps: the tool never crashes, and when it
returns the file holds the report. -/
theorem C72_shipped (hl : u.length < 2 ^ 26) (hs : ∀ t v, ClientChosen Regexp.lib.tables ClientTypeAll u t v → ¬ UnsafeRule v)
    {s : Single} (hr : Single.Reach Regexp.lib.tables H u s) : s.panicked = false ∧ (s.Returned → FullReport Regexp.lib.tables H u s.out) := by
  have hok : ∀ g ∈ shown, uncached Regexp.lib.tables H g { ua := u } ≠ none := fun g _ => shipped_ok hl hs g
  exact ⟨C72_no_panic hok (shipped_size hl) hr, C72_report hok (shipped_size hl) hr⟩

/-- C72 for the shipped tables, when it is one of those: the tool crashes and the file holds the user agent and a heading. -/
theorem C72_shipped_crash (hl : u.length < 2 ^ 26) (hs : ∃ t v, ClientChosen Regexp.lib.tables ClientTypeAll u t v ∧ UnsafeRule v)
    {s : Single} (hr : Single.Reach Regexp.lib.tables H u s) : ¬ s.Returned ∧ s.out <+: headText u ∧ (s.panicked = true → s.out = headText u) :=
  C72_crash ((C27_exact Regexp.lib (q := { ua := u }) (by show u.length < _; omega) (by decide)).mpr ⟨rfl, hs⟩) (shipped_size hl) hr

/-- C66 for the shipped tables: a file of rows with user agents of less than 64 MiB for which no broken rule is selected, with different hashes, no user agent of
a row with a model occurring twice. Whatever the number of threads, when the tool returns the output is made of the rows' reports, in some order. -/
theorem C66_shipped_partial {lower : Bytes → Bytes} {rows : List Row} {threads : Nat} {s : Batch} (hr : Batch.Reach Regexp.lib.tables H lower rows threads s)
    (hH : ∀ u u', InRows rows u → InRows rows u' → H u = H u' → u = u') (hl : ∀ r ∈ rows, r.ua.length < 2 ^ 26)
    (hs : ∀ r ∈ rows, ∀ t v, ClientChosen Regexp.lib.tables ClientTypeAll r.ua t v → ¬ UnsafeRule v) (hcol : ∀ r ∈ rows, r.model ≠ [] → Once rows r.ua)
    (hret : s.cli.Returned) :
    ∃ truth : Bytes → Got, (∀ r ∈ rows, Truth Regexp.lib.tables H r.ua (truth r.ua)) ∧
      ∃ l : List Row, l.Perm rows ∧ s.cli.out.flatten = l.flatMap fun r => report lower r (truth r.ua) := by
  classical
  have hok : ∀ r ∈ rows, ∀ g ∈ asked, uncached Regexp.lib.tables H g { ua := r.ua } ≠ none := fun r hr g _ => shipped_ok (hl r hr) (hs r hr) g
  have hex : ∀ u, ∃ g, (∃ r ∈ rows, r.ua = u) → Truth Regexp.lib.tables H u g := by
    intro u
    by_cases h : ∃ r ∈ rows, r.ua = u
    · obtain ⟨r, h1, rfl⟩ := h
      obtain ⟨g, hg⟩ := truth_exists (T := Regexp.lib.tables) (H := H) (hok r h1)
      exact ⟨g, fun _ => hg⟩
    · exact ⟨⟨[], [], [], [], [], [], [], [], [], []⟩, fun h' => absurd h' h⟩
  obtain ⟨truth, ht⟩ : ∃ truth : Bytes → Got, ∀ u, (∃ r ∈ rows, r.ua = u) → Truth Regexp.lib.tables H u (truth u) :=
    ⟨fun u => (hex u).choose, fun u => (hex u).choose_spec⟩
  have ht' : ∀ r ∈ rows, Truth Regexp.lib.tables H r.ua (truth r.ua) := fun r h => ht r.ua ⟨r, h, rfl⟩
  exact ⟨truth, ht', C66_report_partial hr hH hok (fun r h => by have := shipped_size (hl r h); omega) hcol ht' hret⟩

/-- A run which returns, with the report. -/
example : ∃ s, Single.Reach Regexp.lib.tables fnv1 (buf (pat! "Mozilla/5.0 Chrome/96.0 Safari/537.36")) s ∧ s.Returned ∧
    FullReport Regexp.lib.tables fnv1 (buf (pat! "Mozilla/5.0 Chrome/96.0 Safari/537.36")) s.out := by
  have hs : ∀ t v, ClientChosen Regexp.lib.tables ClientTypeAll (buf (pat! "Mozilla/5.0 Chrome/96.0 Safari/537.36")) t v → ¬ UnsafeRule v := by
    rintro t v ⟨a, z, i, rows, -, -, -, h4, h5⟩
    exact demo_safe rows (List.mem_of_getElem? h4) v h5
  obtain ⟨s, h1, h2⟩ := C72_ends (T := Regexp.lib.tables) (H := fnv1) (u := buf (pat! "Mozilla/5.0 Chrome/96.0 Safari/537.36")) .init
  have h3 := C72_shipped (by decide +kernel) hs h1
  rcases h2 with h2 | h2
  · exact ⟨s, h1, h2, h3.2 h2⟩
  · rw [h3.1] at h2; cases h2

/-- The comparison on a file with one row, which says that the model is "X". -/
example : ∃ s : Batch, Batch.Reach Regexp.lib.tables fnv1 id [{ ua := buf (pat! "Mozilla/5.0 Chrome/96.0 Safari/537.36"), model := ascii "X" }] 4 s ∧ s.cli.Returned ∧
    ∃ g, Truth Regexp.lib.tables fnv1 (buf (pat! "Mozilla/5.0 Chrome/96.0 Safari/537.36")) g ∧
      s.cli.out.flatten = report id { ua := buf (pat! "Mozilla/5.0 Chrome/96.0 Safari/537.36"), model := ascii "X" } g := by
  have hs : ∀ r ∈ [({ ua := buf (pat! "Mozilla/5.0 Chrome/96.0 Safari/537.36"), model := ascii "X" } : Row)],
      ∀ t v, ClientChosen Regexp.lib.tables ClientTypeAll r.ua t v → ¬ UnsafeRule v := by
    rintro r hr t v ⟨a, z, i, rows, -, -, -, h4, h5⟩
    cases List.mem_singleton.mp hr
    exact demo_safe rows (List.mem_of_getElem? h4) v h5
  have hH : ∀ u u', InRows [({ ua := buf (pat! "Mozilla/5.0 Chrome/96.0 Safari/537.36"), model := ascii "X" } : Row)] u →
      InRows [({ ua := buf (pat! "Mozilla/5.0 Chrome/96.0 Safari/537.36"), model := ascii "X" } : Row)] u' → fnv1 u = fnv1 u' → u = u' :=
    hash_of_list (by decide +kernel)
  have hl : ∀ r ∈ [({ ua := buf (pat! "Mozilla/5.0 Chrome/96.0 Safari/537.36"), model := ascii "X" } : Row)], r.ua.length < 2 ^ 26 := by decide +kernel
  have ho : ∀ r ∈ [({ ua := buf (pat! "Mozilla/5.0 Chrome/96.0 Safari/537.36"), model := ascii "X" } : Row)],
      Once [({ ua := buf (pat! "Mozilla/5.0 Chrome/96.0 Safari/537.36"), model := ascii "X" } : Row)] r.ua := by
    intro r hr
    cases List.mem_singleton.mp hr
    simp [Once]
  obtain ⟨s, h1, h2⟩ := C66_ends (T := Regexp.lib.tables) (H := fnv1) (lower := id)
    (rows := [{ ua := buf (pat! "Mozilla/5.0 Chrome/96.0 Safari/537.36"), model := ascii "X" }]) (threads := 4) (by decide) .init
  have hp := C66_no_panic h1 hH (fun r hr g _ => shipped_ok (hl r hr) (hs r hr) g) (fun r h => by have := shipped_size (hl r h); omega) ho
  rcases h2 with h2 | h2
  · obtain ⟨truth, h3, l, h4, h5⟩ := C66_shipped_partial h1 hH hl hs (fun r hr _ => ho r hr) h2
    rw [List.perm_singleton.mp h4] at h5
    exact ⟨s, h1, h2, _, h3 _ (List.mem_singleton.mpr rfl), by simpa using h5⟩
  · rw [hp] at h2; cases h2

/-- And one which crashes. -/
example : ∃ s, Single.Reach Regexp.lib.tables fnv1 (buf (pat! "RutubeTVBlackAndroid")) s ∧ s.panicked = true ∧
    s.out = ascii "origin ua: RutubeTVBlackAndroid\nclient:\n" := by
  obtain ⟨s, h1, h2⟩ := C72_ends (T := Regexp.lib.tables) (H := fnv1) (u := buf (pat! "RutubeTVBlackAndroid")) .init
  have h3 := C72_shipped_crash (by decide +kernel) rutube_chosen h1
  rcases h2 with h2 | h2
  · exact absurd h2 h3.1
  · exact ⟨s, h1, h2, (h3.2.2 h2).trans (by decide +kernel)⟩

end

end Verif.Cli

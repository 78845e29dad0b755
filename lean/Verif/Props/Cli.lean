import Verif.Proofs.Cli
/-
C48: batch processing of the command line tool handles every row exactly once, terminates and does not deadlock.
C63: what is reported.
-/
namespace Verif.Cli
variable {lower : Bytes → Bytes} {rows : List Row} {threads : Nat}

/-! ### C48 -/

/-- C48: when processing returns, every row was handled exactly once, the counter is their number, and the output consists of the blocks
of the rows with errors, each complete, uninterrupted and exactly once (`l` lists the rows with the answers got for them). -/
theorem C48_exactly_once {s : CState} (hr : CReach lower rows threads s) (hret : s.Returned) :
    (s.handled.map (·.1)).Perm rows ∧ s.count = rows.length ∧
      ∃ l : List (Row × Got), l.Perm s.handled ∧ s.out = l.flatMap fun x => if errs lower x.1 x.2 = [] then [] else block lower x.1 x.2 := by
  have I := cinv hr
  have nil : ∀ {β : Type} (f : Worker → List β), f .done = [] → s.workers.flatMap f = [] := by
    intro β f hf
    rw [List.flatMap_eq_nil_iff]
    intro w hw
    rw [hret.2 w hw, hf]
  have hch : s.chan = [] := by
    by_cases hw : s.workers = []
    · have ht : threads = 0 := by rw [← I.len, hw]; rfl
      subst ht
      exact (no_workers hr).2.1
    · obtain ⟨w, hw'⟩ := List.exists_mem_of_ne_nil _ hw
      exact (I.done w hw' (hret.2 w hw')).2
  have hp : (s.handled.map (·.1)).Perm rows := by
    rw [List.perm_iff_count]
    intro r
    rw [I.cnt r, nil Worker.item rfl, hch, I.cl hret.1]
    simp
  refine ⟨hp, ?_, s.written ++ s.handled.filter (fun x => !bad lower x), ?_, ?_⟩
  · rw [I.count, ← hp.length_eq]; simp
  · rw [List.perm_iff_count]
    intro x
    rw [List.count_append, I.written x, nil (Worker.wr lower) rfl, List.count_nil]
    have := List.countP_eq_countP_filter_add s.handled (· == x) (bad lower)
    simp only [List.count] at this ⊢
    omega
  · have h1 := I.out
    rw [nil Worker.todo rfl, List.append_nil] at h1
    rw [h1, List.flatMap_append]
    have e1 : s.written.flatMap (fun x => if errs lower x.1 x.2 = [] then [] else block lower x.1 x.2) =
        s.written.flatMap fun x => block lower x.1 x.2 := by
      simp only [List.flatMap_def]
      congr 1
      refine List.map_congr_left fun x hx => ?_
      have := I.written x
      rw [nil (Worker.wr lower) rfl] at this
      have h2 : 0 < s.written.count x := List.count_pos_iff.mpr hx
      rw [this] at h2
      simp only [List.count_nil, Nat.add_zero] at h2
      have := (List.mem_filter.mp (List.count_pos_iff.mp h2)).2
      simp only [bad, decide_eq_true_eq] at this
      exact if_neg this
    have e2 : (s.handled.filter (fun x => !bad lower x)).flatMap (fun x => if errs lower x.1 x.2 = [] then [] else block lower x.1 x.2) = [] := by
      rw [List.flatMap_eq_nil_iff]
      intro x hx
      have := (List.mem_filter.mp hx).2
      simp [bad] at this
      exact if_pos this
    rw [e1, e2, List.append_nil]

/-- C48, safety on the way: at any time no row is counted more often than it occurs in the file. -/
theorem C48_at_most_once {s : CState} (hr : CReach lower rows threads s) (r : Row) : (s.handled.map (·.1)).count r ≤ rows.count r := by
  have := (cinv hr).cnt r
  omega

/-- C48, no deadlock: with at least one thread, processing that did not return can go on. -/
theorem C48_no_deadlock (ht : 1 ≤ threads) {s : CState} (hr : CReach lower rows threads s) (hn : ¬ s.Returned) : ∃ s', CStep lower rows threads s s' := by
  have I := cinv hr
  -- a worker neither waiting for the channel nor done
  have active : ∀ w ∈ s.workers, w ≠ .recv → w ≠ .done → ∃ s', CStep lower rows threads s s' := by
    intro w hw h1 h2
    obtain ⟨pre, post, hw⟩ := List.append_of_mem hw
    cases w with
    | recv => exact absurd rfl h1
    | done => exact absurd rfl h2
    | work r =>
      let g : Got := ⟨[], [], [], [], [], [], [], [], [], []⟩
      by_cases he : errs lower r g = []
      · exact ⟨_, .good g hw he⟩
      · exact ⟨_, .bad g hw he⟩
    | lock r g =>
      cases hm : s.fmux with
      | none => exact ⟨_, .lock hw hm⟩
      | some i =>
        obtain ⟨r', g', t, hi⟩ := I.mux i hm
        obtain ⟨pre', post', hw'⟩ := List.append_of_mem (List.mem_of_getElem? hi)
        cases t with
        | nil => exact ⟨_, .unlock hw'⟩
        | cons x xs => exact ⟨_, .write hw'⟩
    | write r g t =>
      cases t with
      | nil => exact ⟨_, .unlock hw⟩
      | cons x xs => exact ⟨_, .write hw⟩
    | fin r g => exact ⟨_, .count hw⟩
  by_cases ha : ∃ w ∈ s.workers, w ≠ .recv ∧ w ≠ .done
  · obtain ⟨w, hw, h1, h2⟩ := ha
    exact active w hw h1 h2
  · have idle : ∀ w ∈ s.workers, w = .recv ∨ w = .done := by
      intro w hw
      cases w with
      | recv => exact .inl rfl
      | done => exact .inr rfl
      | _ => exact absurd ⟨_, hw, by simp, by simp⟩ ha
    cases hc : s.closed with
    | false =>
      by_cases hs : s.sent < rows.length
      · by_cases hl : s.chan.length < threads * 8
        · exact ⟨_, .send (List.getElem?_eq_getElem hs) hc hl⟩
        · obtain ⟨w, hw⟩ := List.exists_mem_of_ne_nil s.workers (by
            intro h
            have := I.len
            rw [h] at this
            simp at this
            omega)
          rcases idle w hw with rfl | rfl
          · obtain ⟨pre, post, hw⟩ := List.append_of_mem hw
            cases hch : s.chan with
            | nil => rw [hch] at hl; exact absurd hl (by simp; omega)
            | cons r rest => exact ⟨_, .recv hw hch⟩
          · have := (I.done _ hw rfl).1
            rw [hc] at this
            cases this
      · exact ⟨_, .close (by have := I.le; omega) hc⟩
    | true =>
      have : ∃ w ∈ s.workers, w ≠ .done := by
        refine Classical.byContradiction fun h => hn ⟨hc, fun w hw => Classical.byContradiction fun h' => h ⟨w, hw, h'⟩⟩
      obtain ⟨w, hw, hne⟩ := this
      rcases idle w hw with rfl | rfl
      · obtain ⟨pre, post, hw⟩ := List.append_of_mem hw
        cases hch : s.chan with
        | nil => exact ⟨_, .stop hw hch hc⟩
        | cons r rest => exact ⟨_, .recv hw hch⟩
      · exact absurd rfl hne

/-- C48, termination: there is no infinite run, whatever the schedule and the answers. With `C48_no_deadlock`: processing always returns. -/
theorem C48_terminates (f : Nat → CState) : ¬ ∀ n, CStep lower rows threads (f n) (f (n + 1)) := by
  intro h
  have key : ∀ w t n, (f n).weight rows = w → (f n).todo = t → False := by
    intro w
    induction w using Nat.strongRecOn with
    | ind w ihw =>
      intro t
      induction t using Nat.strongRecOn with
      | ind t iht =>
        intro n hw ht
        rcases weight_step (h n) with hlt | ⟨heq, hlt⟩
        · exact ihw _ (by omega) _ (n + 1) rfl rfl
        · exact iht _ (by omega) (n + 1) (by omega) rfl
  exact key _ _ 0 rfl rfl

/-- C48, zero threads: with at least one row the program is stuck at once and never returns. -/
theorem C48_zero_threads (hne : rows ≠ []) {s : CState} (hr : CReach lower rows 0 s) : (∀ s', ¬ CStep lower rows 0 s s') ∧ ¬ s.Returned := by
  have hpos := List.length_pos_iff.mpr hne
  have hs := (no_workers hr).1
  have hc : s.closed = false := by
    cases h : s.closed with
    | false => rfl
    | true => have := (cinv hr).cl h; omega
  refine ⟨fun s' st => ?_, fun h => by have := h.1; rw [hc] at this; cases this⟩
  have hw : s.workers = [] := List.eq_nil_of_length_eq_zero (cinv hr).len
  cases st with
  | send _ _ hl => exact absurd hl (by simp)
  | close h => omega
  | recv h | stop h | good _ h | bad _ h | lock h | write h | unlock h | count h =>
    rw [hw] at h
    exact absurd h.symm (by simp)

/-- One row, one thread, no error: a run that returns. -/
example (lower : Bytes → Bytes) : ∃ s, CReach lower [{ ua := ascii "x" }] 1 s ∧ s.Returned ∧ s.count = 1 := by
  let g : Got := ⟨[], [], [], [], [], [], [], [], [], []⟩
  have h1 := (CReach.init (lower := lower) (rows := [{ ua := ascii "x" }]) (threads := 1)).step (.send (r := { ua := ascii "x" }) rfl rfl (by decide))
  have h2 := h1.step (.recv (pre := []) (post := []) rfl rfl)
  have h3 := h2.step (.good (pre := []) (post := []) g rfl (by simp [errs, check]))
  have h4 := h3.step (.count (pre := []) (post := []) rfl)
  have h5 := h4.step (.close rfl rfl)
  have h6 := h5.step (.stop (pre := []) (post := []) rfl rfl rfl)
  exact ⟨_, h6, ⟨rfl, by simp⟩, rfl⟩

/-! ### C63 -/

/-- The pairs (expected, got) of a row. -/
def pairs (r : Row) (g : Got) : List (Bytes × Bytes) :=
  [(r.clientType, g.clientType), (r.clientName, g.browser), (r.clientVersion, g.browserVersion), (r.engine, g.engine), (r.engineVersion, g.engineVersion),
   (r.deviceType, g.deviceType), (r.brand, g.brand), (r.model, g.model), (r.os, g.os), (r.osVersion, g.osVersion)]

theorem check_nil {label : String} {need got : Bytes} : check lower label need got = [] ↔ (need = [] ∨ lower got = lower need) := by
  unfold check
  split
  · rename_i h
    have : need ≠ [] := List.length_pos_iff.mp h.1
    simp [this, h.2]
  · rename_i h
    simp only [true_iff]
    by_cases hn : need = []
    · exact .inl hn
    · right
      exact Classical.byContradiction fun h' => h ⟨List.length_pos_iff.mpr hn, h'⟩

/-- C63: a row is reported exactly when some expected value is given and differs, ignoring case, from the answer. -/
theorem C63_reported (r : Row) (g : Got) : errs lower r g ≠ [] ↔ ∃ x ∈ pairs r g, x.1 ≠ [] ∧ lower x.2 ≠ lower x.1 := by
  have e : errs lower r g = [] ↔ ∀ x ∈ pairs r g, x.1 = [] ∨ lower x.2 = lower x.1 := by
    simp only [errs, List.append_eq_nil_iff, check_nil, pairs, List.mem_cons, List.not_mem_nil, or_false, forall_eq_or_imp, forall_eq]
    simp only [and_assoc]
  rw [ne_eq, e]
  constructor
  · intro h
    refine Classical.byContradiction fun h' => h fun x hx => ?_
    by_cases h1 : x.1 = []
    · exact .inl h1
    · exact .inr (Classical.byContradiction fun h2 => h' ⟨x, hx, h1, h2⟩)
  · rintro ⟨x, hx, h1, h2⟩ h
    rcases h x hx with h | h
    · exact h1 h
    · exact h2 h

/-- C63: one line per differing value: there are as many lines as differing values. -/
theorem C63_lines (r : Row) (g : Got) : (errs lower r g).length = (pairs r g).countP fun x => decide (x.1 ≠ [] ∧ lower x.2 ≠ lower x.1) := by
  have e : ∀ label need got, (check lower label need got).length = if need ≠ [] ∧ lower got ≠ lower need then 1 else 0 := by
    intro label need got
    unfold check
    by_cases h : need = []
    · simp [h]
    · have := List.length_pos_iff.mpr h
      by_cases h2 : lower got = lower need
      · simp [h2]
      · simp [h, h2, this]
  simp only [errs, List.length_append, e, pairs, List.countP_cons, List.countP_nil, decide_eq_true_eq]
  omega

/-- The compared values in the order of the report. -/
def columns : List String :=
  ["client type", "browser", "browser version", "engine", "engine version", "device type", "brand", "model", "OS", "OS version"]

/-- C63: the lines are those of the differing values, in the order of the columns, each naming its column, the expected and the actual value. -/
theorem C63_text (r : Row) (g : Got) : errs lower r g =
    ((columns.zip (pairs r g)).filter fun x => decide (x.2.1 ≠ [] ∧ lower x.2.2 ≠ lower x.2.1)).map fun x =>
      ascii x.1 ++ ascii " mismatch: need '" ++ x.2.1 ++ ascii "' got '" ++ x.2.2 ++ ascii "'" := by
  have e : ∀ label need got, check lower label need got =
      (([(label, need, got)] : List (String × Bytes × Bytes)).filter fun x => decide (x.2.1 ≠ [] ∧ lower x.2.2 ≠ lower x.2.1)).map fun x =>
        ascii x.1 ++ ascii " mismatch: need '" ++ x.2.1 ++ ascii "' got '" ++ x.2.2 ++ ascii "'" := by
    intro label need got
    unfold check
    by_cases h : need = []
    · simp [h]
    · have := List.length_pos_iff.mpr h
      by_cases h2 : lower got = lower need
      · simp [h2]
      · simp [h, h2, this]
  simp only [errs, e, ← List.map_append, ← List.filter_append]
  rfl

/-- The differing columns of a row: label, expected and actual value. -/
def differing (lower : Bytes → Bytes) (r : Row) (g : Got) : List (String × Bytes × Bytes) :=
  (columns.zip (pairs r g)).filter fun x => decide (x.2.1 ≠ [] ∧ lower x.2.2 ≠ lower x.2.1)

/-- The text a row contributes to the report: nothing if no column differs; otherwise the user agent, one line for each differing column, and
an empty line. -/
def report (lower : Bytes → Bytes) (r : Row) (g : Got) : Bytes :=
  if differing lower r g = [] then [] else
    r.ua ++ ascii "\n" ++ ((differing lower r g).flatMap fun x =>
      ascii "* " ++ ascii x.1 ++ ascii " mismatch: need '" ++ x.2.1 ++ ascii "' got '" ++ x.2.2 ++ ascii "'\n") ++ ascii "\n"

theorem block_report (r : Row) (g : Got) : (if errs lower r g = [] then [] else block lower r g).flatten = report lower r g := by
  have e := C63_text (lower := lower) r g
  change _ = (differing lower r g).map _ at e
  unfold report
  have en : errs lower r g = [] ↔ differing lower r g = [] := by rw [e, List.map_eq_nil_iff]
  by_cases hn : differing lower r g = []
  · rw [if_pos hn, if_pos (en.mpr hn)]; rfl
  · rw [if_neg hn, if_neg (mt en.mp hn)]
    unfold block
    rw [e, List.flatMap_map]
    have q : ∀ l : List (String × Bytes × Bytes), (l.flatMap fun x =>
        [ascii "* ", ascii x.1 ++ ascii " mismatch: need '" ++ x.2.1 ++ ascii "' got '" ++ x.2.2 ++ ascii "'", ascii "\n"]).flatten =
        l.flatMap fun x => ascii "* " ++ ascii x.1 ++ ascii " mismatch: need '" ++ x.2.1 ++ ascii "' got '" ++ x.2.2 ++ ascii "'\n" := by
      intro l
      induction l with
      | nil => rfl
      | cons x l ih =>
        have k : ascii "'\n" = ascii "'" ++ ascii "\n" := by decide +kernel
        rw [List.flatMap_cons, List.flatten_append, ih, List.flatMap_cons]
        congr 1
        simp only [List.flatten_cons, List.flatten_nil, k, List.append_assoc, List.append_nil]
    rw [List.cons_append, List.cons_append, List.flatten_cons, List.flatten_cons, List.flatten_append, q, List.flatten_cons, List.flatten_nil, List.append_nil,
      ← List.append_assoc, ← List.append_assoc]

/-- C63: the whole report is the text of the rows, in some order (`l` lists the rows with the answers got for them). -/
theorem C63_report {s : CState} (hr : CReach lower rows threads s) (hret : s.Returned) :
    ∃ l : List (Row × Got), (l.map (·.1)).Perm rows ∧ s.out.flatten = l.flatMap fun x => report lower x.1 x.2 := by
  obtain ⟨h1, -, l, h2, h3⟩ := C48_exactly_once hr hret
  refine ⟨l, (h2.map _).trans h1, ?_⟩
  rw [h3]
  clear h1 h2 h3
  induction l with
  | nil => rfl
  | cons x l ih => simp only [List.flatMap_cons, List.flatten_append, ih, block_report]

example : errs id { ua := ascii "x", brand := ascii "Acer", os := ascii "iOS" } ⟨[], [], [], [], [], [], ascii "Asus", [], ascii "iOS", []⟩ =
    [ascii "brand mismatch: need 'Acer' got 'Asus'"] := by decide +kernel

example : report id { ua := ascii "x", brand := ascii "Acer", os := ascii "iOS" } ⟨[], [], [], [], [], [], ascii "Asus", [], ascii "iOS", []⟩ =
    ascii "x\n* brand mismatch: need 'Acer' got 'Asus'\n\n" := by decide +kernel

end Verif.Cli

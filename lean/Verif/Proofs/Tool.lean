import Verif.Spec.Tool
import Verif.Proofs.EmitRules
/-
Lemmas about the rule compiler as a program.
-/
namespace Verif.Tool

open Compiler

/-! ### The rows with all columns -/

theorem C.bind_eq {α β : Type} (x : C α) (f : α → C β) (s : St) : (x >>= f) s = match x s with | none => none | some (a, s') => f a s' := rfl

theorem C.pure_eq {α : Type} (a : α) (s : St) : (Pure.pure a : C α) s = some (a, s) := rfl

/-- `y` is `x` with less in the result. -/
def Proj {α β : Type} (g : α → β) (x : C α) (y : C β) : Prop := ∀ s, y s = (x s).map fun r => (g r.1, r.2)

theorem Proj.bind {α β γ : Type} {g : β → γ} {x : C α} {f : α → C β} {f' : α → C γ} (h : ∀ a, Proj g (f a) (f' a)) : Proj g (x >>= f) (x >>= f') := by
  intro s
  rw [C.bind_eq, C.bind_eq]
  cases x s with
  | none => rfl
  | some r => exact h r.1 r.2

theorem proj_row (env : Env) (t : ClientRule) : Proj (·.1) (clientRowX env t) (clientRow env t) := by
  unfold clientRowX clientRow
  exact Proj.bind fun _ => Proj.bind fun _ => Proj.bind fun _ => Proj.bind fun _ => Proj.bind fun _ => Proj.bind fun _ => fun _ => rfl

theorem proj_forList {α β γ : Type} {g : β → γ} {f : α → C β} {f' : α → C γ} (h : ∀ a, Proj g (f a) (f' a)) :
    ∀ l, Proj (List.map g) (C.forList f l) (C.forList f' l)
  | [] => fun _ => rfl
  | a :: l => by
    intro s
    unfold C.forList
    rw [C.bind_eq, C.bind_eq, h a s]
    cases e : f a s with
    | none => rfl
    | some r =>
      obtain ⟨b, s'⟩ := r
      simp only [Option.map_some]
      rw [C.bind_eq, C.bind_eq, proj_forList h l s']
      cases C.forList f l s' with
      | none => rfl
      | some r => rfl

theorem forList_length {α β : Type} {f : α → C β} : ∀ {l : List α} {s r}, C.forList f l s = some r → r.1.length = l.length
  | [], s, r, h => by injection h with h; subst h; rfl
  | a :: l, s, r, h => by
    unfold C.forList at h
    rw [C.bind_eq] at h
    cases e : f a s with
    | none => rw [e] at h; cases h
    | some q =>
      obtain ⟨b, s'⟩ := q
      rw [e] at h
      simp only [C.bind_eq] at h
      cases e' : C.forList f l s' with
      | none => rw [e'] at h; cases h
      | some q =>
        rw [e'] at h
        have := forList_length e'
        injection h with h
        subst h
        simp [this]

theorem compileClientX_spec {env : Env} {files : List (List ClientRule)} {rows o} (h : compileClientX env files = some (rows, o)) :
    compileClient env files = some o ∧ rows.map (fun f => f.map (·.1)) = o.rows ∧ rows.length = files.length := by
  have P := proj_forList (fun a => proj_forList (fun t => proj_row env t) a) files
  unfold compileClientX at h
  unfold compileClient
  rw [P {}]
  cases e : C.forList (C.forList (clientRowX env)) files {} with
  | none => rw [e] at h; cases h
  | some q =>
    obtain ⟨rs, s⟩ := q
    rw [e] at h
    simp only [Option.map_some] at h ⊢
    have hl := forList_length e
    cases e' : evRows 0 (engineNames s.engines) s with
    | none => rw [e'] at h; cases h
    | some q =>
      obtain ⟨ev, s'⟩ := q
      rw [e'] at h
      simp only at h ⊢
      injection h with h
      injection h with h1 h2
      subst h1 h2
      exact ⟨rfl, rfl, hl⟩

theorem compileClientX_some {env : Env} {files : List (List ClientRule)} {o} (h : compileClient env files = some o) : ∃ rows, compileClientX env files = some (rows, o) := by
  have P := proj_forList (fun a => proj_forList (fun t => proj_row env t) a) files
  unfold compileClient at h
  rw [P {}] at h
  cases e : C.forList (C.forList (clientRowX env)) files {} with
  | none => rw [e] at h; cases h
  | some q =>
    obtain ⟨rs, s⟩ := q
    rw [e] at h
    simp only [Option.map_some] at h
    unfold compileClientX
    rw [e]
    simp only
    cases e' : evRows 0 (engineNames s.engines) s with
    | none => rw [e'] at h; cases h
    | some q =>
      rw [e'] at h
      injection h with h
      subst h
      exact ⟨rs, rfl⟩

theorem proj_hint : ∀ files keys done, Proj List.flatten (hintFilesX keys done files) (hintFiles keys done files)
  | [], _, _ => fun _ => rfl
  | f :: fs, keys, done => by
    unfold hintFilesX hintFiles
    refine Proj.bind fun r s => ?_
    rw [C.bind_eq, C.bind_eq, proj_hint fs _ _ s]
    cases hintFilesX _ _ fs s with
    | none => rfl
    | some q => rfl

theorem hintFilesX_length : ∀ {files keys done s r}, hintFilesX keys done files s = some r → r.1.length = files.length
  | [], _, _, _, r, h => by injection h with h; subst h; rfl
  | f :: fs, keys, done, s, r, h => by
    unfold hintFilesX at h
    rw [C.bind_eq] at h
    cases e : hintLoop f done (sortBy id (keys ++ f.map (·.1))) s with
    | none => rw [e] at h; cases h
    | some q =>
      obtain ⟨b, s'⟩ := q
      rw [e] at h
      simp only [C.bind_eq] at h
      cases e' : hintFilesX (sortBy id (keys ++ f.map (·.1))) b.2 fs s' with
      | none => rw [e'] at h; cases h
      | some q =>
        rw [e'] at h
        have := hintFilesX_length e'
        injection h with h
        subst h
        simp [this]

theorem compileHintX_spec {hash : Bytes → UInt64} {files : List (List (Bytes × Bytes))} {l st} (h : compileHintX hash files = some (l, st)) :
    compileHint hash files = some (l.flatten, st) ∧ l.length = files.length := by
  unfold compileHintX at h
  unfold compileHint
  rw [proj_hint files [] [] {}]
  cases e : hintFilesX [] [] files {} with
  | none => rw [e] at h; cases h
  | some q =>
    obtain ⟨q, s⟩ := q
    rw [e] at h
    simp only [Option.map_some] at h ⊢
    have hl := hintFilesX_length e
    injection h with h
    injection h with h1 h2
    subst h1 h2
    refine ⟨?_, by rw [List.length_map]; exact hl⟩
    rw [List.map_flatten]

theorem compileHintX_some {hash : Bytes → UInt64} {files : List (List (Bytes × Bytes))} {rows st} (h : compileHint hash files = some (rows, st)) :
    ∃ l, compileHintX hash files = some (l, st) := by
  unfold compileHint at h
  rw [proj_hint files [] [] {}] at h
  unfold compileHintX
  cases e : hintFilesX [] [] files {} with
  | none => rw [e] at h; cases h
  | some q =>
    rw [e] at h
    injection h with h
    injection h with _ h
    subst h
    exact ⟨_, rfl⟩

theorem loadAll_length {α : Type} {decode : Bytes → Option α} {fs : FS} : ∀ {ps l}, loadAll decode fs ps = some l → l.length = ps.length
  | [], l, h => by injection h with h; subst h; rfl
  | p :: ps, l, h => by
    unfold loadAll at h
    cases e : load decode fs p with
    | none => rw [e] at h; cases h
    | some a =>
      rw [e] at h
      cases e' : loadAll decode fs ps with
      | none => rw [e'] at h; cases h
      | some as =>
        rw [e'] at h
        have := loadAll_length e'
        injection h with h
        subst h
        simp [this]

theorem loadAll_congr {α : Type} {decode : Bytes → Option α} {fs fs' : FS} : ∀ {ps}, (∀ p ∈ ps, fs p = fs' p) → loadAll decode fs ps = loadAll decode fs' ps
  | [], _ => rfl
  | p :: ps, h => by
    unfold loadAll load
    rw [h p (.head _), loadAll_congr fun q hq => h q (.tail _ hq)]

theorem zip_snd {α β : Type} : ∀ {l : List α} {r : List β}, r.length = l.length → (l.zip r).map (·.2) = r
  | [], [], _ => rfl
  | [], _ :: _, h => by cases h
  | _ :: _, [], h => by cases h
  | a :: l, b :: r, h => by
    rw [List.zip_cons_cons, List.map_cons, zip_snd (by simpa using h)]

theorem zip_fst {α β : Type} {l : List α} {r : List β} {x : α × β} (h : x ∈ l.zip r) : x.1 ∈ l := (List.of_mem_zip h).1

/-! ### Runs -/

theorem save_cases (w : World) (fs : FS) (path text : Bytes) :
    (w.save fs path text).2 = fs ∧ (w.save fs path text).1 = .stopped ∨
      ∃ n, (w.save fs path text).2 = (fun p => if p = path then some (text.take n) else fs p) ∧ ((w.save fs path text).1 = .done → text.take n = text) ∧
        (w.save fs path text).1 ≠ .help := by
  unfold World.save
  cases w.write fs path text with
  | ok => exact .inr ⟨text.length, by simp, by simp, by simp⟩
  | refused => exact .inl ⟨rfl, rfl⟩
  | short n => exact .inr ⟨n, rfl, (fun h => by cases h), by simp⟩

theorem save_done {w : World} {fs fs' : FS} {path text : Bytes} (h : w.save fs path text = (.done, fs')) :
    fs' = fun p => if p = path then some text else fs p := by
  unfold World.save at h
  split at h
  · injection h with _ h; exact h.symm
  · injection h with h _; cases h
  · injection h with h _; cases h

theorem load_iff {α : Type} {decode : Bytes → Option α} {fs : FS} {p : Bytes} {a : α} : load decode fs p = some a ↔ Reads decode fs p a := by
  unfold load Reads
  cases e : fs p with
  | none => simp
  | some b => by_cases hb : b = [] <;> simp [hb]

theorem loadAll_iff {α : Type} {decode : Bytes → Option α} {fs : FS} : ∀ {ps as}, loadAll decode fs ps = some as ↔ ReadsAll decode fs ps as
  | [], as => by
    constructor
    · intro h; injection h with h; subst h; exact .nil
    · intro h; cases h; rfl
  | p :: ps, as => by
    unfold loadAll
    constructor
    · intro h
      cases e : load decode fs p with
      | none => rw [e] at h; cases h
      | some a =>
        rw [e] at h
        cases e' : loadAll decode fs ps with
        | none => rw [e'] at h; cases h
        | some l =>
          rw [e'] at h
          injection h with h
          subst h
          exact .cons (load_iff.mp e) (loadAll_iff.mp e')
    · intro h
      cases h with
      | cons h t => rw [load_iff.mpr h, loadAll_iff.mpr t]; rfl

theorem Reads.congr {α : Type} {decode : Bytes → Option α} {fs fs' : FS} {p : Bytes} {a : α} (e : fs' p = fs p) (h : Reads decode fs p a) : Reads decode fs' p a := by
  unfold Reads at h ⊢; rw [e]; exact h

theorem ReadsAll.congr {α : Type} {decode : Bytes → Option α} {fs fs' : FS} {ps as} (h : ReadsAll decode fs ps as) : (∀ p ∈ ps, fs' p = fs p) → ReadsAll decode fs' ps as := by
  induction h with
  | nil => exact fun _ => .nil
  | cons h _ ih => exact fun e => .cons (h.congr (e _ (.head _))) (ih fun p hp => e p (.tail _ hp))

theorem ReadsAll.length {α : Type} {decode : Bytes → Option α} {fs : FS} {ps as} (h : ReadsAll decode fs ps as) : as.length = ps.length := by
  induction h with
  | nil => rfl
  | cons _ _ ih => simp [ih]

theorem ReadsAll.mem {α : Type} {decode : Bytes → Option α} {fs : FS} {ps as} (h : ReadsAll decode fs ps as) : ∀ p ∈ ps, ∃ a, Reads decode fs p a := by
  induction h with
  | nil => exact fun p hp => by cases hp
  | cons h _ ih =>
    intro p hp
    cases hp with
    | head => exact ⟨_, h⟩
    | tail _ hp => exact ih p hp

theorem expand_id {w : World} : ∀ {i : Bytes}, (126 : UInt8) ∉ i → w.expand i = i
  | [], _ => rfl
  | c :: i, h => by
    have h1 : c ≠ 126 := fun e => h (e ▸ .head _)
    have h2 := expand_id (w := w) (i := i) fun e => h (.tail _ e)
    unfold World.expand at h2 ⊢
    rw [List.flatMap_cons, if_neg h1, h2]
    rfl

theorem parse_cmd (m : String) (i t : Bytes) : parseFlags {} (cmd m i t) = .ok ⟨ascii m, i, t⟩ := by
  unfold cmd
  simp only [parseFlags, show dashes (ascii "-module") = some (ascii "module") from by decide, show dashes (ascii "-input") = some (ascii "input") from by decide,
    show dashes (ascii "-target") = some (ascii "target") from by decide,
    show (splitEq (ascii "module")) = (ascii "module", none) from by decide, show (splitEq (ascii "input")) = (ascii "input", none) from by decide,
    show (splitEq (ascii "target")) = (ascii "target", none) from by decide]
  rw [if_neg (by decide), if_neg (by decide)]
  simp only [Flags.set]
  rw [if_pos (.inl trivial)]
  simp only
  rw [if_neg (by decide), if_neg (by decide), if_neg (by decide), if_pos (.inl trivial)]
  simp only
  rw [if_neg (by decide), if_neg (by decide), if_neg (by decide), if_neg (by decide), if_pos (.inl trivial)]

theorem dashes_flag {d : String} (hd : d ∈ ["-", "--"]) {c : UInt8} {n : Bytes} (hc : c ≠ 45) : dashes (ascii d ++ c :: n) = some (c :: n) ∧ ascii d ++ c :: n ≠ ascii "--" := by
  simp only [List.mem_cons, List.not_mem_nil, or_false] at hd
  rcases hd with e | e <;> subst e
  · refine ⟨?_, ?_⟩
    · change dashes (45 :: c :: n) = _
      unfold dashes
      split
      · next h => injection h with _ h; injection h with h _; exact absurd h hc
      · next h => injection h with _ h; rw [h]
      · next h => exact absurd rfl (h c n)
    · intro h
      change 45 :: c :: n = [45, 45] at h
      injection h with _ h
      injection h with h _
      exact hc h
  · refine ⟨rfl, ?_⟩
    intro h
    change 45 :: 45 :: c :: n = [45, 45] at h
    injection h with _ h
    injection h with _ h
    cases h

theorem split_none {c : UInt8} {n : Bytes} (h : (61 : UInt8) ∉ n) : splitEq (c :: n) = (c :: n, none) := by
  unfold splitEq
  simp only
  have ne : ∀ x ∈ n, decide (x ≠ 61) = true := fun x hx => decide_eq_true fun e => h (e ▸ hx)
  have := List.takeWhile_append_of_pos (l₂ := []) ne
  rw [List.append_nil, List.takeWhile_nil, List.append_nil] at this
  rw [if_neg h, this]

theorem split_some {c : UInt8} {n v : Bytes} (h : (61 : UInt8) ∉ n) : splitEq (c :: (n ++ 61 :: v)) = (c :: n, some v) := by
  have ne : ∀ x ∈ n, decide (x ≠ 61) = true := fun x hx => decide_eq_true fun e => h (e ▸ hx)
  unfold splitEq
  simp only
  rw [if_pos (by simp), List.takeWhile_append_of_pos ne, List.dropWhile_append_of_pos ne]
  simp

theorem parse_sep {d n : String} (hd : d ∈ ["-", "--"]) (h1 : (ascii n).headD 45 ≠ 45) (h2 : 61 ∉ ascii n) {f f' : Flags} {v : Bytes} (h3 : f.set (ascii n) v = some f') {rest : List Bytes} :
    parseFlags f ((ascii d ++ ascii n) :: v :: rest) = parseFlags f' rest := by
  cases e : ascii n with
  | nil => rw [e] at h1; exact absurd rfl h1
  | cons c n' =>
    rw [e] at h1 h2 h3
    change c ≠ 45 at h1
    have h2' : (61 : UInt8) ∉ n' := fun h => h2 (.tail _ h)
    have hc : c ≠ 61 := fun h => h2 (h ▸ .head _)
    obtain ⟨k1, k2⟩ := dashes_flag hd (n := n') h1
    conv => lhs; unfold parseFlags
    simp only [k1, split_none h2', h3]
    rw [if_neg k2, if_neg]
    rintro (h | h | h)
    · cases h
    · injection h with h; exact h1 h
    · injection h with h; exact hc h

theorem parse_eq {d n : String} (hd : d ∈ ["-", "--"]) (h1 : (ascii n).headD 45 ≠ 45) (h2 : 61 ∉ ascii n) {f f' : Flags} {v : Bytes} (h3 : f.set (ascii n) v = some f') {rest : List Bytes} :
    parseFlags f ((ascii d ++ ascii n ++ 61 :: v) :: rest) = parseFlags f' rest := by
  cases e : ascii n with
  | nil => rw [e] at h1; exact absurd rfl h1
  | cons c n' =>
    rw [e] at h1 h2 h3
    change c ≠ 45 at h1
    have h2' : (61 : UInt8) ∉ n' := fun h => h2 (.tail _ h)
    have hc : c ≠ 61 := fun h => h2 (h ▸ .head _)
    obtain ⟨k1, k2⟩ := dashes_flag hd (n := n' ++ 61 :: v) h1
    rw [List.append_assoc, List.cons_append]
    conv => lhs; unfold parseFlags
    simp only [k1, split_some h2', h3]
    rw [if_neg k2, if_neg]
    rintro (h | h | h)
    · cases h
    · injection h with h; exact h1 h
    · injection h with h; exact hc h

/-- The run of a command, once the flags are known. -/
theorem run_ok {w : World} {fs : FS} {args : List Bytes} {f : Flags} {m : Mod} (hp : parseFlags {} args = .ok f) (hm : Mod.ofName f.mod = some m) (hi : f.inp ≠ []) :
    w.run fs args = w.compile fs args m f.inp f.trg := by
  unfold World.run
  rw [hp]
  simp only
  rw [if_neg, hm]
  · simp only; rw [if_neg hi]
  · intro h; rw [h, show Mod.ofName [] = none from by decide] at hm; cases hm

/-- A run that ends well has written the formatted source. -/
theorem compile_done {w : World} {fs fs' : FS} {args : List Bytes} {m : Mod} {i t : Bytes} (hb : m ≠ .bot) (h : w.compile fs args m i t = (.done, fs')) :
    ∃ src text, w.source fs args i m = some src ∧ w.format src = some text ∧ fs' = put fs (if t = [] then m.target else t) text := by
  unfold World.compile at h
  rw [if_neg hb] at h
  cases e : w.source fs args i m with
  | none => rw [e] at h; injection h with h _; cases h
  | some src =>
    rw [e] at h
    simp only at h
    cases e' : w.format src with
    | none => rw [e'] at h; injection h with h _; cases h
    | some text =>
      rw [e'] at h
      exact ⟨src, text, rfl, e', save_done h⟩

theorem run_done {w : World} {fs fs' : FS} {name : String} {m : Mod} {i t : Bytes} (hm : Mod.ofName (ascii name) = some m) (hb : m ≠ .bot) (ht : t ≠ [])
    (h : w.run fs (cmd name i t) = (.done, fs')) :
    ∃ src text, w.source fs (cmd name i t) i m = some src ∧ w.format src = some text ∧ fs' = put fs t text := by
  by_cases hi : i = []
  · unfold World.run at h
    rw [parse_cmd] at h
    simp only [hm] at h
    rw [if_pos hi] at h
    split at h <;> (injection h with h _; cases h)
  · rw [run_ok (parse_cmd name i t) hm hi] at h
    obtain ⟨src, text, h1, h2, h3⟩ := compile_done hb h
    rw [if_neg ht] at h3
    exact ⟨src, text, h1, h2, h3⟩

theorem base_line {p : Bytes} (h : LineOK p) : LineOK (base p) := by
  intro c hc
  unfold base at hc
  rw [List.mem_reverse] at hc
  exact h c (List.mem_reverse.mp ((List.takeWhile_sublist _).subset hc))

theorem cmd_line {m : String} {i t : Bytes} (hm : LineOK (ascii m)) (hi : LineOK i) (ht : LineOK t) : ∀ a ∈ cmd m i t, LineOK a := by
  intro a ha
  unfold cmd at ha
  simp only [List.mem_cons, List.not_mem_nil, or_false] at ha
  rcases ha with e | e | e | e | e | e <;> subst e
  · exact (by decide : LineOK (ascii "-module"))
  · exact hm
  · exact (by decide : LineOK (ascii "-input"))
  · exact hi
  · exact (by decide : LineOK (ascii "-target"))
  · exact ht

end Verif.Tool

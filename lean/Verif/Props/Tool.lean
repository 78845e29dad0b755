import Verif.Proofs.Tool
import Verif.Props.Emit
/-
C76: runs of the rule compiler.
-/
namespace Verif.Tool

open Compiler

/-- **C76** (partial). A run changes at most one file, the target, and that only to a beginning of the formatted source of the module that was
asked for: to all of it if the run ends with status 0. In particular a run that fails before writing leaves all files alone. -/
theorem C76_frame_partial (w : World) (fs : FS) (args : List Bytes) :
    (w.run fs args).2 = fs ∨
      ∃ f m src text n, parseFlags {} args = .ok f ∧ Mod.ofName f.mod = some m ∧ f.inp ≠ [] ∧ w.source fs args f.inp m = some src ∧ w.format src = some text ∧
        (w.run fs args).2 = put fs (if f.trg = [] then m.target else f.trg) (text.take n) ∧ ((w.run fs args).1 = .done → text.take n = text) := by
  unfold World.run
  cases e : parseFlags {} args with
  | bad => exact .inl rfl
  | help => exact .inl rfl
  | ok f =>
    simp only
    split
    · exact .inl rfl
    cases em : Mod.ofName f.mod with
    | none => exact .inl rfl
    | some m =>
      simp only
      split
      · exact .inl rfl
      next hi =>
      unfold World.compile
      split
      · exact .inl rfl
      cases es : w.source fs args f.inp m with
      | none => exact .inl rfl
      | some src =>
        simp only
        cases ef : w.format src with
        | none => exact .inl rfl
        | some text =>
          simp only
          rcases save_cases w fs (if f.trg = [] then m.target else f.trg) text with h | ⟨n, h1, h2, _⟩
          · exact .inl h.1
          · exact .inr ⟨f, m, src, text, n, rfl, em, hi, es, ef, h1, h2⟩

/-- **C76**. If an input file of a directory is missing, empty or cannot be decoded, the run fails and no file changes. -/
theorem C76_bad_file {w : World} {fs : FS} {d t : Bytes} (hd : (126 : UInt8) ∉ d) {ps : List Bytes}
    (hg : w.glob fs (d ++ ascii "/*.yml") = some ps) {p : Bytes} (hp : p ∈ ps) :
    ((∀ a, ¬ Reads w.client fs p a) → w.run fs (cmd "client" d t) = (.stopped, fs)) ∧
    ((∀ a, ¬ Reads w.device fs p a) → w.run fs (cmd "device" d t) = (.stopped, fs)) ∧
    ((∀ a, ¬ Reads w.hint fs p a) → w.run fs (cmd "hint" d t) = (.stopped, fs)) := by
  have key : ∀ {name : String} {m : Mod}, Mod.ofName (ascii name) = some m → m ≠ .bot → ascii name ≠ [] → w.source fs (cmd name d t) d m = none →
      w.run fs (cmd name d t) = (.stopped, fs) := by
    intro name m hm hb hn hs
    by_cases hi : d = []
    · unfold World.run
      rw [parse_cmd]
      simp only
      rw [if_neg hn, hm]
      simp only
      rw [if_pos hi]
    · rw [run_ok (parse_cmd name d t) hm hi]
      unfold World.compile
      rw [if_neg hb]
      simp only
      rw [hs]
  have none_of : ∀ {α : Type} {decode : Bytes → Option α}, (∀ a, ¬ Reads decode fs p a) → loadAll decode fs ps = none := by
    intro α decode h
    cases e : loadAll decode fs ps with
    | none => rfl
    | some as => exact absurd ((loadAll_iff.mp e).mem p hp).choose_spec (h _)
  refine ⟨fun h => ?_, fun h => ?_, fun h => ?_⟩
  · refine key (m := .client) (by decide) (by decide) (by decide) ?_
    unfold World.source
    simp only [expand_id hd, hg, none_of h, Option.bind_eq_bind, Option.bind_some]
    rfl
  · refine key (m := .device) (by decide) (by decide) (by decide) ?_
    unfold World.source
    simp only [expand_id hd, hg, none_of h, Option.bind_eq_bind, Option.bind_some]
    rfl
  · refine key (m := .hint) (by decide) (by decide) (by decide) ?_
    unfold World.source
    simp only [expand_id hd, hg, none_of h, Option.bind_eq_bind, Option.bind_some]
    rfl

/-- **C76** (partial), end to end. Five runs of the tool, one per module, with different targets that are not inputs: if all end with status 0, the
five targets are Go files whose tables detect according to the rules in the input files, in the sense of C64–C73. `go/format` must keep what
the source declares. -/
theorem C76_generate_partial {w : World} (hfmt : ∀ s s', w.format s = some s' → Go.file s' = Go.file s) (he : w.env.Writable)
    {dC pO dD pV dH : Bytes} (nC : (126 : UInt8) ∉ dC) (nO : (126 : UInt8) ∉ pO) (nD : (126 : UInt8) ∉ dD) (nV : (126 : UInt8) ∉ pV) (nH : (126 : UInt8) ∉ dH)
    {tC tO tD tV tH : Bytes} (hn : [tC, tO, tD, tV, tH].Nodup) (h0 : ∀ t ∈ [tC, tO, tD, tV, tH], t ≠ [])
    (hl : ∀ x ∈ [dC, pO, dD, pV, dH, tC, tO, tD, tV, tH], LineOK x)
    {fs fs1 fs2 fs3 fs4 fs5 : FS}
    {psC psD psH : List Bytes} {r : Rules}
    (gC : w.glob fs (dC ++ ascii "/*.yml") = some psC) (rC : ReadsAll w.client fs psC r.client)
    (rO : Reads w.os fs pO r.os)
    (gD : ∀ fs', SameBut [tC, tO, tD, tV, tH] fs fs' → w.glob fs' (dD ++ ascii "/*.yml") = some psD) (rD : ReadsAll w.device fs psD r.device)
    (rV : Reads w.vendor fs pV r.vendor)
    (gH : ∀ fs', SameBut [tC, tO, tD, tV, tH] fs fs' → w.glob fs' (dH ++ ascii "/*.yml") = some psH) (rH : ReadsAll w.hint fs psH r.hint)
    (hpl : ∀ p ∈ psC ++ psD ++ psH, LineOK p) (hin : ∀ p ∈ pO :: pV :: (psD ++ psH), p ∉ [tC, tO, tD, tV, tH])
    (runC : w.run fs (cmd "client" dC tC) = (.done, fs1)) (runO : w.run fs1 (cmd "os" pO tO) = (.done, fs2))
    (runD : w.run fs2 (cmd "device" dD tD) = (.done, fs3)) (runV : w.run fs3 (cmd "vendor" pV tV) = (.done, fs4))
    (runH : w.run fs4 (cmd "hint" dH tH) = (.done, fs5))
    (hr : r.Writable w.hash) (hs : ∀ o, compile w.env w.hash r = some o → o.Small ∧ o.client.evre.length ≤ 2 ^ 31)
    {lib : Bytes → Re} (fb ft fm : Re)
    (hw : ∀ p, (lib p).WF) (hsrc : ∀ p, (lib p).src = p) (hen : ∀ n, NamesEngine r n → MandatoryGroup (lib (anyCase (enginePattern n)))) :
    ∃ s : Go.Sources, fs5 tC = some s.client ∧ fs5 tO = some s.os ∧ fs5 tD = some s.device ∧ fs5 tV = some s.vendor ∧ fs5 tH = some s.hint ∧
      SameBut [tC, tO, tD, tV, tH] fs fs5 ∧
      ∃ T, Go.tables lib fb ft fm s = some T ∧ Package w.env lib w.hash r T := by
  obtain ⟨srcC, txC, sC, fC, e1⟩ := run_done (m := .client) (by decide) (by decide) (h0 _ (by simp)) runC
  obtain ⟨srcO, txO, sO, fO, e2⟩ := run_done (m := .os) (by decide) (by decide) (h0 _ (by simp)) runO
  obtain ⟨srcD, txD, sD, fD, e3⟩ := run_done (m := .device) (by decide) (by decide) (h0 _ (by simp)) runD
  obtain ⟨srcV, txV, sV, fV, e4⟩ := run_done (m := .vendor) (by decide) (by decide) (h0 _ (by simp)) runV
  obtain ⟨srcH, txH, sH, fH, e5⟩ := run_done (m := .hint) (by decide) (by decide) (h0 _ (by simp)) runH
  have step : ∀ {f f' : FS} {t x : Bytes}, t ∈ [tC, tO, tD, tV, tH] → f' = put f t x → SameBut [tC, tO, tD, tV, tH] fs f → SameBut [tC, tO, tD, tV, tH] fs f' := by
    rintro f _ t x ht rfl h p hp
    unfold put
    rw [if_neg (fun e : p = t => hp (e ▸ ht))]
    exact h p hp
  have k1 := step (by simp) e1 (fun _ _ => rfl)
  have k2 := step (by simp) e2 k1
  have k3 := step (by simp) e3 k2
  have k4 := step (by simp) e4 k3
  have k5 := step (by simp) e5 k4
  -- what each run compiled
  unfold World.source at sC sO sD sV sH
  simp only [expand_id nC, expand_id nO, expand_id nD, expand_id nV, expand_id nH, gC, gD _ k2, gH _ k4, loadAll_iff.mpr rC,
    load_iff.mpr (rO.congr (k1 _ (hin _ (by simp)))), load_iff.mpr (rV.congr (k3 _ (hin _ (by simp)))),
    loadAll_iff.mpr (rD.congr fun p hp => k2 p (hin p (by simp [hp]))), loadAll_iff.mpr (rH.congr fun p hp => k4 p (hin p (by simp [hp]))),
    Option.bind_eq_bind, Option.bind_some] at sC sO sD sV sH
  cases cC : compileClientX w.env r.client with
  | none => rw [cC] at sC; cases sC
  | some oC =>
  cases cO : compileOS w.env r.os with
  | none => rw [cO] at sO; cases sO
  | some oO =>
  cases cD : compileDevice w.env r.device with
  | none => rw [cD] at sD; cases sD
  | some oD =>
  cases cV : compileVendor r.vendor with
  | none => rw [cV] at sV; cases sV
  | some oV =>
  cases cH : compileHintX w.hash r.hint with
  | none => rw [cH] at sH; cases sH
  | some oH =>
  rw [cC] at sC; rw [cO] at sO; rw [cD] at sD; rw [cV] at sV; rw [cH] at sH
  simp only [Option.bind_some, Option.pure_def, Option.some.injEq] at sC sO sD sV sH
  obtain ⟨a1, a2, a3⟩ := compileClientX_spec (rows := oC.1) (o := oC.2) cC
  obtain ⟨b1, b2⟩ := compileHintX_spec (l := oH.1) (st := oH.2) cH
  have dl : oD.1.length = r.device.length := by
    unfold compileDevice at cD
    exact forList_length cD
  have hc : compile w.env w.hash r = some ⟨oC.2, oO, oD, oV, (oH.1.flatten, oH.2)⟩ := by
    unfold compile
    rw [a1, cO, cD, cV, b1]
    rfl
  obtain ⟨small, evre⟩ := hs _ hc
  have names : ∀ {α : Type} {ps : List Bytes} {l : List α}, (∀ p ∈ ps, LineOK p) → ∀ x ∈ (ps.map base).zip l, LineOK x.1 := by
    intro α ps l h x hx
    obtain ⟨p, hp, e⟩ := List.mem_map.mp (zip_fst hx)
    rw [← e]
    exact base_line (h p hp)
  obtain ⟨T, hT, hP⟩ := C74_package_partial (lib := lib) fb ft fm he hr hc small evre
    (args := fun i => match i with | 0 => cmd "client" dC tC | 1 => cmd "os" pO tO | 2 => cmd "device" dD tD | 3 => cmd "vendor" pV tV | 4 => cmd "hint" dH tH)
    (fun i => match i with
      | 0 => cmd_line (by decide) (hl _ (by simp)) (hl _ (by simp)) | 1 => cmd_line (by decide) (hl _ (by simp)) (hl _ (by simp))
      | 2 => cmd_line (by decide) (hl _ (by simp)) (hl _ (by simp)) | 3 => cmd_line (by decide) (hl _ (by simp)) (hl _ (by simp))
      | 4 => cmd_line (by decide) (hl _ (by simp)) (hl _ (by simp)))
    (cf := (psC.map base).zip oC.1)
    (by
      have := zip_snd (l := psC.map base) (r := oC.1) (by rw [a3, rC.length, List.length_map])
      rw [← a2]
      conv => rhs; rw [← this, List.map_map]
      rfl)
    (names fun p hp => hpl p (by simp [hp]))
    (df := (psD.map base).zip oD.1) (zip_snd (by rw [dl, rD.length, List.length_map])) (names fun p hp => hpl p (by simp [hp]))
    (hf := (psH.map base).zip oH.1)
    (by rw [List.flatMap_def, zip_snd]; rw [b2, rH.length, List.length_map])
    (names fun p hp => hpl p (by simp [hp])) hw hsrc hen
  have ne : ∀ {a b : Bytes}, a ≠ b → ∀ {f : FS} {x}, put f b x a = f a := fun {a b} h {f x} => by unfold put; rw [if_neg h]
  simp only [List.nodup_cons, List.mem_cons, List.not_mem_nil, or_false, not_or] at hn
  obtain ⟨⟨x1, x2, x3, x4⟩, ⟨x5, x6, x7⟩, ⟨x8, x9⟩, x10, _⟩ := hn
  have self : ∀ {f : FS} {t x}, put f t x t = some x := by unfold put; simp
  refine ⟨⟨txC, txO, txD, txV, txH⟩, ?_, ?_, ?_, ?_, ?_, k5, T, ?_, hP⟩
  · rw [e5, ne x4, e4, ne x3, e3, ne x2, e2, ne x1, e1, self]
  · rw [e5, ne x7, e4, ne x6, e3, ne x5, e2, self]
  · rw [e5, ne x9, e4, ne x8, e3, self]
  · rw [e5, ne x10, e4, self]
  · rw [e5, self]
  · rw [← hT]
    unfold Go.tables sourcesOf
    simp only
    rw [hfmt _ _ fC, hfmt _ _ fO, hfmt _ _ fD, hfmt _ _ fV, hfmt _ _ fH, ← sC, ← sO, ← sD, ← sV, ← sH]

theorem files_some {lib : Bytes → Re} {fb ft fm : Re} {s : Go.Sources} {T : Tables} (h : Go.tables lib fb ft fm s = some T) :
    (Go.file s.client).isSome = true ∧ (Go.file s.os).isSome = true ∧ (Go.file s.device).isSome = true ∧ (Go.file s.vendor).isSome = true ∧
      (Go.file s.hint).isSome = true := by
  unfold Go.tables at h
  cases e1 : Go.file s.client with
  | none => rw [e1] at h; cases h
  | some c =>
  cases e2 : Go.file s.os with
  | none => rw [e1, e2] at h; cases h
  | some o =>
  cases e3 : Go.file s.device with
  | none => rw [e1, e2, e3] at h; cases h
  | some d =>
  cases e4 : Go.file s.vendor with
  | none => rw [e1, e2, e3, e4] at h; cases h
  | some v =>
  cases e5 : Go.file s.hint with
  | none => rw [e1, e2, e3, e4, e5] at h; cases h
  | some x => exact ⟨rfl, rfl, rfl, rfl, rfl⟩

/-- **C76** (partial). Such runs do end with status 0: if the input files decode to rules the generator can write, `go/format` accepts what is valid
Go, and the target can be written, then so it is, for each module. -/
theorem C76_succeeds_partial {w : World} (hacc : ∀ s, (Go.file s).isSome = true → (w.format s).isSome = true) (he : w.env.Writable)
    {r : Rules} (hr : r.Writable w.hash) (hs : ∀ o, compile w.env w.hash r = some o → o.Small ∧ o.client.evre.length ≤ 2 ^ 31)
    {fs : FS} {i t : Bytes} (hi : i ≠ []) (ni : (126 : UInt8) ∉ i) (ht : t ≠ []) (li : LineOK i) (lt : LineOK t) (hok : ∀ text, w.write fs t text = .ok) :
    (∀ ps, w.glob fs (i ++ ascii "/*.yml") = some ps → (∀ p ∈ ps, LineOK p) →
      (ReadsAll w.client fs ps r.client → (w.run fs (cmd "client" i t)).1 = .done) ∧
      (ReadsAll w.device fs ps r.device → (w.run fs (cmd "device" i t)).1 = .done) ∧
      (ReadsAll w.hint fs ps r.hint → (w.run fs (cmd "hint" i t)).1 = .done)) ∧
    (Reads w.os fs i r.os → (w.run fs (cmd "os" i t)).1 = .done) ∧
    (Reads w.vendor fs i r.vendor → (w.run fs (cmd "vendor" i t)).1 = .done) := by
  have finish : ∀ {name : String} {m : Mod} {src : Bytes}, Mod.ofName (ascii name) = some m → m ≠ .bot → w.source fs (cmd name i t) i m = some src →
      (Go.file src).isSome = true → (w.run fs (cmd name i t)).1 = .done := by
    intro name m src hm hb hsrc hf
    rw [run_ok (parse_cmd name i t) hm hi]
    unfold World.compile
    rw [if_neg hb]
    simp only [hsrc]
    cases e : w.format src with
    | none => have := hacc src hf; rw [e] at this; cases this
    | some text =>
      simp only
      rw [if_neg ht]
      unfold World.save
      rw [hok]
  obtain ⟨oC, cC, _⟩ := client_ok w.env r.client
  obtain ⟨oO, sO, cO, _⟩ := os_ok w.env r.os
  obtain ⟨oD, sD, cD, _⟩ := device_ok w.env r.device
  obtain ⟨oV, sV, cV, _⟩ := vendor_ok r.vendor
  obtain ⟨_, oH, sH, cH, _, _⟩ := hint_ok w.hash r.hint
  obtain ⟨xC, cCX⟩ := compileClientX_some cC
  obtain ⟨xH, cHX⟩ := compileHintX_some cH
  obtain ⟨_, a2, a3⟩ := compileClientX_spec cCX
  obtain ⟨b1, b2⟩ := compileHintX_spec cHX
  have b3 : xH.flatten = oH := by rw [b1] at cH; injection cH with cH; injection cH
  have dl : oD.length = r.device.length := by
    unfold compileDevice at cD
    exact forList_length cD
  have hc : compile w.env w.hash r = some ⟨oC, (oO, sO), (oD, sD), (oV, sV), (oH, sH)⟩ := by
    unfold compile
    rw [cC, cO, cD, cV, cH]
    rfl
  obtain ⟨small, evre⟩ := hs _ hc
  have names : ∀ {α : Type} {ps : List Bytes} {l : List α}, (∀ p ∈ ps, LineOK p) → ∀ x ∈ (ps.map base).zip l, LineOK x.1 := by
    intro α ps l h x hx
    obtain ⟨p, hp, e⟩ := List.mem_map.mp (zip_fst hx)
    rw [← e]
    exact base_line (h p hp)
  -- the files are valid whatever file names are recorded
  have valid : ∀ (name : String) {nC nD nH : List Bytes}, LineOK (ascii name) → nC.length = xC.length → nD.length = oD.length → nH.length = xH.length →
      (∀ p ∈ nC, LineOK p) → (∀ p ∈ nD, LineOK p) → (∀ p ∈ nH, LineOK p) → _ :=
    fun name nC nD nH hl h1 h2 h3 l1 l2 l3 => files_some (C74_source_partial (fun _ => noRe) noRe noRe noRe he hr hc small evre
      (args := fun _ => cmd name i t) (fun _ => cmd_line hl li lt) (cf := (nC.map base).zip xC)
      (by
        have := zip_snd (l := nC.map base) (r := xC) (by rw [List.length_map, h1])
        rw [← a2]
        conv => rhs; rw [← this, List.map_map]
        rfl)
      (names l1) (df := (nD.map base).zip oD) (zip_snd (by rw [List.length_map, h2])) (names l2)
      (hf := (nH.map base).zip xH) (by rw [List.flatMap_def, zip_snd (by rw [List.length_map, h3]), b3]) (names l3))
  have dummy : ∀ n, ∀ p ∈ List.replicate n ([] : Bytes), LineOK p := fun n p hp => by
    rw [List.eq_of_mem_replicate hp]
    intro c hc
    cases hc
  have dlen : ∀ n, (List.replicate n ([] : Bytes)).length = n := fun n => List.length_replicate
  refine ⟨fun ps hg hp => ⟨fun h => ?_, fun h => ?_, fun h => ?_⟩, fun h => ?_, fun h => ?_⟩
  · refine finish (m := .client) (by decide) (by decide) ?_ (valid "client" (nC := ps) (by decide) (by rw [a3, h.length]) (dlen _) (dlen _) hp (dummy _) (dummy _)).1
    unfold World.source
    simp only [expand_id ni, hg, loadAll_iff.mpr h, cCX, Option.bind_eq_bind, Option.bind_some]
    rfl
  · refine finish (m := .device) (by decide) (by decide) ?_ (valid "device" (nD := ps) (by decide) (dlen _) (by rw [dl, h.length]) (dlen _) (dummy _) hp (dummy _)).2.2.1
    unfold World.source
    simp only [expand_id ni, hg, loadAll_iff.mpr h, cD, Option.bind_eq_bind, Option.bind_some]
    rfl
  · refine finish (m := .hint) (by decide) (by decide) ?_ (valid "hint" (nH := ps) (by decide) (dlen _) (dlen _) (by rw [b2, h.length]) (dummy _) (dummy _) hp).2.2.2.2
    unfold World.source
    simp only [expand_id ni, hg, loadAll_iff.mpr h, cHX, Option.bind_eq_bind, Option.bind_some]
    rfl
  · refine finish (m := .os) (by decide) (by decide) ?_ (valid "os" (by decide) (dlen _) (dlen _) (dlen _) (dummy _) (dummy _) (dummy _)).2.1
    unfold World.source
    simp only [expand_id ni, load_iff.mpr h, cO, Option.bind_eq_bind, Option.bind_some]
    rfl
  · refine finish (m := .vendor) (by decide) (by decide) ?_ (valid "vendor" (by decide) (dlen _) (dlen _) (dlen _) (dummy _) (dummy _) (dummy _)).2.2.2.1
    unfold World.source
    simp only [expand_id ni, load_iff.mpr h, cV, Option.bind_eq_bind, Option.bind_some]
    rfl

/-- **C76**. The flags: all documented spellings, with one or two dashes, with `=` or the value in the next argument; later ones win. -/
theorem C76_flags (f : Flags) (v : Bytes) (rest : List Bytes) : ∀ d ∈ ["-", "--"],
    (∀ n ∈ ["module", "mod", "m"], parseFlags f ((ascii d ++ ascii n) :: v :: rest) = parseFlags { f with mod := v } rest ∧
      parseFlags f ((ascii d ++ ascii n ++ 61 :: v) :: rest) = parseFlags { f with mod := v } rest) ∧
    (∀ n ∈ ["input", "in", "i"], parseFlags f ((ascii d ++ ascii n) :: v :: rest) = parseFlags { f with inp := v } rest ∧
      parseFlags f ((ascii d ++ ascii n ++ 61 :: v) :: rest) = parseFlags { f with inp := v } rest) ∧
    (∀ n ∈ ["target", "t"], parseFlags f ((ascii d ++ ascii n) :: v :: rest) = parseFlags { f with trg := v } rest ∧
      parseFlags f ((ascii d ++ ascii n ++ 61 :: v) :: rest) = parseFlags { f with trg := v } rest) := by
  have key : ∀ (d n : String) (f' : Flags), d ∈ ["-", "--"] → (ascii n).headD 45 ≠ 45 → 61 ∉ ascii n → f.set (ascii n) v = some f' →
      parseFlags f ((ascii d ++ ascii n) :: v :: rest) = parseFlags f' rest ∧ parseFlags f ((ascii d ++ ascii n ++ 61 :: v) :: rest) = parseFlags f' rest :=
    fun d n f' hd h1 h2 h3 => ⟨parse_sep hd h1 h2 h3, parse_eq hd h1 h2 h3⟩
  intro d hd
  refine ⟨?_, ?_, ?_⟩
  · intro n hn
    simp only [List.mem_cons, List.not_mem_nil, or_false] at hn
    rcases hn with e | e | e <;> subst e <;> exact key d _ _ hd (by decide) (by decide) rfl
  · intro n hn
    simp only [List.mem_cons, List.not_mem_nil, or_false] at hn
    rcases hn with e | e | e <;> subst e <;> exact key d _ _ hd (by decide) (by decide) rfl
  · intro n hn
    simp only [List.mem_cons, List.not_mem_nil, or_false] at hn
    rcases hn with e | e <;> subst e <;> exact key d _ _ hd (by decide) (by decide) rfl

/-! ### The hypotheses can be met -/

deriving instance DecidableEq for EngineRule, ClientRule, OSVersionRule, OSRule, ModelRule, DeviceRule, VendorRule

/-- A file system where the contents of `in/…` is the path itself. -/
def demoFS : FS := fun p => if ascii "in/" <+: p then some p else none

/-- The file names `d/A`, `d/B`, … -/
def demoNames (d : String) (n : Nat) : List Bytes := (List.range n).map fun k => ascii d ++ [UInt8.ofNat (65 + k)]

def demoWorld : World where
  home := ascii "/h"
  glob := fun _ p =>
    if p = ascii "in/c/*.yml" then some (demoNames "in/c/" demoFull.client.length)
    else if p = ascii "in/d/*.yml" then some (demoNames "in/d/" demoFull.device.length)
    else if p = ascii "in/h/*.yml" then some (demoNames "in/h/" demoFull.hint.length)
    else some []
  write := fun _ _ _ => .ok
  client := fun b => demoFull.client[(b.getLastD 0).toNat - 65]?
  os := fun b => if b = ascii "in/oss.yml" then some demoFull.os else none
  device := fun b => demoFull.device[(b.getLastD 0).toNat - 65]?
  vendor := fun b => if b = ascii "in/vendorfragments.yml" then some demoFull.vendor else none
  hint := fun b => demoFull.hint[(b.getLastD 0).toNat - 65]?
  format := some
  env := demoEnv
  hash := demoHash

/-- All five runs succeed and the theorem applies. -/
example : ∃ fs5 : FS, ∃ s : Go.Sources, fs5 (ascii "c.go") = some s.client ∧ ∃ T, Go.tables demoLib noRe noRe noRe s = some T ∧
    Package demoEnv demoLib demoHash demoFull T := by
  let w := demoWorld
  let fs1 := (w.run demoFS (cmd "client" (ascii "in/c") (ascii "c.go"))).2
  let fs2 := (w.run fs1 (cmd "os" (ascii "in/oss.yml") (ascii "o.go"))).2
  let fs3 := (w.run fs2 (cmd "device" (ascii "in/d") (ascii "d.go"))).2
  let fs4 := (w.run fs3 (cmd "vendor" (ascii "in/vendorfragments.yml") (ascii "v.go"))).2
  let fs5 := (w.run fs4 (cmd "hint" (ascii "in/h") (ascii "h.go"))).2
  have D1 : (w.run demoFS (cmd "client" (ascii "in/c") (ascii "c.go"))).1 = .done := by decide +kernel
  have D2 : (w.run fs1 (cmd "os" (ascii "in/oss.yml") (ascii "o.go"))).1 = .done := by decide +kernel
  have D3 : (w.run fs2 (cmd "device" (ascii "in/d") (ascii "d.go"))).1 = .done := by decide +kernel
  have D4 : (w.run fs3 (cmd "vendor" (ascii "in/vendorfragments.yml") (ascii "v.go"))).1 = .done := by decide +kernel
  have D5 : (w.run fs4 (cmd "hint" (ascii "in/h") (ascii "h.go"))).1 = .done := by decide +kernel
  have pair : ∀ {x : Outcome × FS}, x.1 = .done → x = (.done, x.2) := fun h => by rw [← h]
  have small : ∀ o, compile demoEnv demoHash demoFull = some o → o.Small ∧ o.client.evre.length ≤ 2 ^ 31 := by
    intro o e
    have eo : outOf demoHash demoFull = o := by unfold outOf; rw [e]; rfl
    rw [← eo]
    exact ⟨⟨by decide +kernel, by decide +kernel, by decide +kernel, by decide +kernel, by decide +kernel⟩, by decide +kernel⟩
  obtain ⟨s, h1, _, _, _, _, _, T, hT, hP⟩ := C76_generate_partial (w := w) (fun s s' h => by rw [← Option.some.inj (h : some s = some s')]) demoEnv_writable
    (dC := ascii "in/c") (pO := ascii "in/oss.yml") (dD := ascii "in/d") (pV := ascii "in/vendorfragments.yml") (dH := ascii "in/h")
    (by decide) (by decide) (by decide) (by decide) (by decide)
    (tC := ascii "c.go") (tO := ascii "o.go") (tD := ascii "d.go") (tV := ascii "v.go") (tH := ascii "h.go") (by decide) (by decide) (by decide)
    (fs := demoFS) (fs1 := fs1) (fs2 := fs2) (fs3 := fs3) (fs4 := fs4) (fs5 := fs5)
    (psC := demoNames "in/c/" demoFull.client.length) (psD := demoNames "in/d/" demoFull.device.length) (psH := demoNames "in/h/" demoFull.hint.length)
    (r := demoFull) (by decide +kernel) (loadAll_iff.mp (by decide +kernel)) (load_iff.mp (by decide +kernel)) (fun fs _ => (by decide +kernel : demoWorld.glob demoFS _ = some _)) (loadAll_iff.mp (by decide +kernel))
    (load_iff.mp (by decide +kernel)) (fun fs _ => (by decide +kernel : demoWorld.glob demoFS _ = some _)) (loadAll_iff.mp (by decide +kernel)) (by decide +kernel) (by decide +kernel)
    (pair D1) (pair D2) (pair D3) (pair D4) (pair D5) demo_writable small (lib := demoLib) noRe noRe noRe
    demo_package.lib_wf demo_package.src demo_package.engines
  exact ⟨fs5, s, h1, T, hT, hP⟩

/-- The hypotheses of `C76_succeeds_partial` are met there as well. -/
example : (demoWorld.run demoFS (cmd "device" (ascii "in/d") (ascii "d.go"))).1 = .done := by
  have small : ∀ o, compile demoEnv demoHash demoFull = some o → o.Small ∧ o.client.evre.length ≤ 2 ^ 31 := by
    intro o e
    have eo : outOf demoHash demoFull = o := by unfold outOf; rw [e]; rfl
    rw [← eo]
    exact ⟨⟨by decide +kernel, by decide +kernel, by decide +kernel, by decide +kernel, by decide +kernel⟩, by decide +kernel⟩
  exact ((C76_succeeds_partial (w := demoWorld) (r := demoFull) (fs := demoFS) (i := ascii "in/d") (t := ascii "d.go") (fun _ _ => rfl) demoEnv_writable demo_writable small
    (by decide) (by decide) (by decide) (by decide +kernel) (by decide +kernel) (fun _ => rfl)).1 (demoNames "in/d/" demoFull.device.length) (by decide +kernel)
    (by decide +kernel)).2.1 (loadAll_iff.mp (by decide +kernel))

/-! ### What does not hold -/

/-- **C76**, refuted in general: status 0 does not mean that the rules at the input were compiled, and a failing run can change the target.

1. The module `bot` accepts any input, writes nothing and ends with status 0, in every world.
2. With a directory that does not exist, or has no `.yml` files, the tool overwrites the target with empty tables and ends with status 0.
3. A failing write ends with an error and the target, which had contents, is gone.
4. Every `~` in the input is replaced by the home directory: a file with `~` inside its name cannot be used. -/
theorem C76_refuted :
    (∀ (w : World) fs i t, i ≠ [] → w.run fs (cmd "bot" i t) = (.done, fs)) ∧
    (∃ (w : World) (fs : FS) (text : Bytes), (w.run fs (cmd "client" (ascii "none") (ascii "c.go"))).1 = .done ∧ fs (ascii "c.go") = some (ascii "package uaxpl") ∧
      (w.run fs (cmd "client" (ascii "none") (ascii "c.go"))).2 (ascii "c.go") = some text ∧
      ((Go.file text).bind fun d => Go.value d "__cr_idx" (Go.array "clientTuple" Go.clientTuple)).map (·.length) = some 0) ∧
    (∃ (w : World) (fs : FS), fs (ascii "o.go") = some (ascii "package uaxpl") ∧ (w.run fs (cmd "os" (ascii "in/oss.yml") (ascii "o.go"))).1 = .stopped ∧
      (w.run fs (cmd "os" (ascii "in/oss.yml") (ascii "o.go"))).2 (ascii "o.go") = some []) ∧
    (∃ (w : World) (fs : FS) (l : _), Reads w.os fs (ascii "a~1.yml") l ∧ (w.run fs (cmd "os" (ascii "a~1.yml") (ascii "o.go"))).1 = .stopped ∧
      (w.run (put fs (ascii "a1.yml") (ascii "x")) (cmd "os" (ascii "a1.yml") (ascii "o.go"))).1 = .done) := by
  refine ⟨?_, ?_, ?_, ?_⟩
  · intro w fs i t hi
    rw [run_ok (parse_cmd "bot" i t) (m := .bot) (show Mod.ofName (ascii "bot") = some .bot from by decide) hi]
    rfl
  · let fs : FS := put demoFS (ascii "c.go") (ascii "package uaxpl")
    refine ⟨demoWorld, fs, ((demoWorld.run fs (cmd "client" (ascii "none") (ascii "c.go"))).2 (ascii "c.go")).getD [], by decide +kernel, by decide +kernel,
      by decide +kernel, by decide +kernel⟩
  · exact ⟨{ demoWorld with write := fun _ _ _ => .short 0 }, put demoFS (ascii "o.go") (ascii "package uaxpl"), by decide +kernel, by decide +kernel, by decide +kernel⟩
  · exact ⟨{ demoWorld with os := fun _ => some demoFull.os }, fun p => if p = ascii "a~1.yml" then some (ascii "x") else none, demoFull.os,
      load_iff.mp (by decide +kernel), by decide +kernel, by decide +kernel⟩

/-- The hypotheses of `C76_bad_file` can be met: a directory with one file that is empty. -/
example : (∀ a, ¬ Reads demoWorld.client (put demoFS (ascii "in/c/B") []) (ascii "in/c/B") a) ∧
    ascii "in/c/B" ∈ (demoWorld.glob (put demoFS (ascii "in/c/B") []) (ascii "in/c" ++ ascii "/*.yml")).getD [] :=
  ⟨fun a ⟨b, h, hb, _⟩ => by
    rw [show put demoFS (ascii "in/c/B") [] (ascii "in/c/B") = some [] from by decide +kernel] at h
    injection h with h
    exact hb h.symm, by decide +kernel⟩

end Verif.Tool

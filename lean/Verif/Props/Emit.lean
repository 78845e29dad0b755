import Verif.Proofs.EmitRules
import Verif.Props.RuleFiles
/-
C74: the generated Go source declares the compiled tables.
-/
namespace Verif.Compiler

/-- The five files written for the outputs `o`: `cf`, `df`, `hf` are the input files of the client, device and hint modules with their rows. -/
def sourcesOf (args : Fin 5 → List Bytes) (cf : List (Bytes × List ClientRow)) (df : List (Bytes × List DeviceTuple)) (hf : List (Bytes × List (UInt64 × Entry64)))
    (o : Outputs) : Go.Sources :=
  ⟨emitClient (args 0) cf o.client, emitOS (args 1) o.os.1 o.os.2, emitDevice (args 2) df o.device.2, emitVendor (args 3) o.vendor.1 o.vendor.2,
    emitHint (args 4) hf o.hint.2⟩

/-- **C74** (partial). For rules without the bytes that the generator does not quote, without references that become −128 and without hash
collisions, the generated files are valid and declare exactly the compiled tables, whatever the arguments of the tool, the names of the input
files and the columns `url64`, `type64`. -/
theorem C74_source_partial (lib : Bytes → Re) (fb ft fm : Re) {env : Env} (he : env.Writable) {hash : Bytes → UInt64} {r : Rules} (hr : r.Writable hash)
    {o : Outputs} (ho : compile env hash r = some o) (hs : o.Small) (hv : o.client.evre.length ≤ 2 ^ 31)
    {args : Fin 5 → List Bytes} (ha : ∀ i, ∀ a ∈ args i, LineOK a)
    {cf : List (Bytes × List ClientRow)} (hcf : cf.map (fun f => f.2.map (·.1)) = o.client.rows) (hcl : ∀ f ∈ cf, LineOK f.1)
    {df : List (Bytes × List DeviceTuple)} (hdf : df.map (·.2) = o.device.1) (hdl : ∀ f ∈ df, LineOK f.1)
    {hf : List (Bytes × List (UInt64 × Entry64))} (hhf : hf.flatMap (·.2) = o.hint.1) (hhl : ∀ f ∈ hf, LineOK f.1) :
    Go.tables lib fb ft fm (sourcesOf args cf df hf o) = some (tablesOf lib fb ft fm o) :=
  Go.tables_spec lib fb ft fm ha (fits he hr ho hs hv) hcf hcl hdf hdl hhf hhl

/-- A package built from the generated files is one that C64–C73 speak of: detection follows the rules. -/
theorem C74_package_partial {lib : Bytes → Re} (fb ft fm : Re) {env : Env} (he : env.Writable) {hash : Bytes → UInt64} {r : Rules} (hr : r.Writable hash)
    {o : Outputs} (ho : compile env hash r = some o) (hs : o.Small) (hv : o.client.evre.length ≤ 2 ^ 31)
    {args : Fin 5 → List Bytes} (ha : ∀ i, ∀ a ∈ args i, LineOK a)
    {cf : List (Bytes × List ClientRow)} (hcf : cf.map (fun f => f.2.map (·.1)) = o.client.rows) (hcl : ∀ f ∈ cf, LineOK f.1)
    {df : List (Bytes × List DeviceTuple)} (hdf : df.map (·.2) = o.device.1) (hdl : ∀ f ∈ df, LineOK f.1)
    {hf : List (Bytes × List (UInt64 × Entry64))} (hhf : hf.flatMap (·.2) = o.hint.1) (hhl : ∀ f ∈ hf, LineOK f.1)
    (hw : ∀ p, (lib p).WF) (hsrc : ∀ p, (lib p).src = p) (hen : ∀ n, NamesEngine r n → MandatoryGroup (lib (anyCase (enginePattern n)))) :
    ∃ T, Go.tables lib fb ft fm (sourcesOf args cf df hf o) = some T ∧ Package env lib hash r T :=
  ⟨_, C74_source_partial lib fb ft fm he hr ho hs hv ha hcf hcl hdf hdl hhf hhl, ⟨⟨o, fb, ft, fm, ho, hs, rfl⟩, hw, hsrc, hen⟩⟩

/-! ### The hypotheses can be met -/

theorem demoEnv_writable : demoEnv.Writable := ⟨by simp [demoEnv], by simp [demoEnv], by simp [demoEnv], by simp [demoEnv]⟩

theorem demo_writable : demoFull.Writable demoHash := by
  have ref : ∀ (ix : Bytes → Int8) (v x : Bytes), (v.headD 0 ≠ 36 ∨ ix v.tail = 1) → v = 36 :: x → ix x ≠ -128 := by
    rintro ix v x h rfl
    rcases h with h | h
    · exact absurd rfl h
    · rw [show ix x = 1 from h]; decide
  refine ⟨fun f hf t ht => ⟨?_, fun x => ref _ _ _ ?_⟩, fun f hf t ht en e => ?_, fun t ht => ⟨?_, fun x => ref _ _ _ ?_, fun x => ref _ _ _ ?_, fun v hv => ⟨?_, fun x => ref _ _ _ ?_⟩⟩,
    fun f hf t ht => ⟨?_, fun m hm => ?_⟩, fun t ht p hp => ?_, fun k k' h h' => ?_⟩
  · exact (by decide +kernel : ∀ f ∈ demoFull.client, ∀ t ∈ f, RawOK t.regex) f hf t ht
  · exact (by decide +kernel : ∀ f ∈ demoFull.client, ∀ t ∈ f, t.version.headD 0 ≠ 36 ∨ clientIx t.version.tail = 1) f hf t ht
  · exact (by decide +kernel : ∀ f ∈ demoFull.client, ∀ t ∈ f, ∀ en ∈ t.engine, RawOK en.default ∧ ∀ v ∈ en.versions, QuotedOK v.1 ∧ RawOK v.2) f hf t ht en e
  · exact (by decide +kernel : ∀ t ∈ demoFull.os, RawOK t.regex) t ht
  · exact (by decide +kernel : ∀ t ∈ demoFull.os, t.name.headD 0 ≠ 36 ∨ osIx t.name.tail = 1) t ht
  · exact (by decide +kernel : ∀ t ∈ demoFull.os, t.version.headD 0 ≠ 36 ∨ osIx t.version.tail = 1) t ht
  · exact (by decide +kernel : ∀ t ∈ demoFull.os, ∀ v ∈ t.versions, RawOK v.regex) t ht v hv
  · exact (by decide +kernel : ∀ t ∈ demoFull.os, ∀ v ∈ t.versions, v.version.headD 0 ≠ 36 ∨ osIx v.version.tail = 1) t ht v hv
  · exact (by decide +kernel : ∀ f ∈ demoFull.device, ∀ t ∈ f, RawOK t.regex) f hf t ht
  · exact (by decide +kernel : ∀ f ∈ demoFull.device, ∀ t ∈ f, ∀ m ∈ t.models, RawOK m.regex) f hf t ht m hm
  · exact (by decide +kernel : ∀ t ∈ demoFull.vendor, ∀ p ∈ t.regex, RawOK p) t ht p hp
  · have key : ∀ k, hintValue demoFull.hint k ≠ none → k = ascii "org.a" ∨ k = ascii "org.b" := by
      intro k hk
      by_cases h1 : k = ascii "org.a"
      · exact .inl h1
      by_cases h2 : k = ascii "org.b"
      · exact .inr h2
      exact absurd (by simp [hintValue, demoFull, demoRules, List.lookup, h1, h2, beq_false_of_ne]) hk
    rcases key k h with rfl | rfl <;> rcases key k' h' with rfl | rfl
    · exact fun _ => rfl
    · exact fun e => absurd e (by decide +kernel)
    · exact fun e => absurd e (by decide +kernel)
    · exact fun _ => rfl

/-- File names for the demo. -/
def named {α : Type} (l : List α) : List (Bytes × α) := l.map fun x => (ascii "a.yml", x)

example : Go.tables demoLib (Demo.plainRe "Chromium") (Demo.plainRe "Tab") (Demo.plainRe "Mob")
    (sourcesOf (fun _ => [ascii "-target", ascii "."]) (named ((outOf demoHash demoFull).client.rows.map fun f => f.map fun w => (w, 0, 5)))
      (named (outOf demoHash demoFull).device.1) (named [(outOf demoHash demoFull).hint.1]) (outOf demoHash demoFull)) = some demoPackage := by
  have line : ∀ {α : Type} (l : List α), ∀ f ∈ named l, LineOK f.1 := by
    intro α l f hf
    obtain ⟨x, _, rfl⟩ := List.mem_map.mp hf
    exact (by decide : LineOK (ascii "a.yml"))
  obtain ⟨o, e⟩ := Option.isSome_iff_exists.mp (by decide +kernel : (compile demoEnv demoHash demoFull).isSome = true)
  have eo : outOf demoHash demoFull = o := by unfold outOf; rw [e]; rfl
  refine C74_source_partial _ _ _ _ demoEnv_writable demo_writable (by rw [eo]; exact e)
    ⟨by decide +kernel, by decide +kernel, by decide +kernel, by decide +kernel, by decide +kernel⟩ (by decide +kernel)
    (by decide) ?_ (line _) ?_ (line _) (by simp [named]) (line _)
  · simp [named, Function.comp_def]
  · simp [named, Function.comp_def]

/-! ### Refutation of the full statement -/

/-- A regexp that is good enough for the counterexamples. -/
def noRe : Re := ⟨[], 0, fun _ => none⟩

/-- A backquote in a pattern. -/
def quoteRules : Rules :=
  ⟨[], [], [], [⟨ascii "A", [ascii "x`),regexp.MustCompile(`y"]⟩, ⟨ascii "B", [ascii "z"]⟩], []⟩

/-- A reference to group 128. -/
def refRules : Rules := ⟨[], [{ name := ascii "A", regex := ascii "a", version := ascii "$128" }], [], [], []⟩

/-- Two hints. -/
def hintRules : Rules := ⟨[], [], [], [], [[(ascii "a", ascii "A"), (ascii "b", ascii "B")]]⟩

/-- **C74**, refuted in general: without the conditions the generated source is not valid or, worse, valid with other tables.

1. A backquote in a pattern of a vendor can end the string and begin another regexp: the file declares three patterns where the rules have two, and the
   second vendor gets the middle one.
2. A reference `$128` is stored as −128 and written as `-0x-80`, which is no number.
3. Two hints with the same hash give a map literal with a repeated key. -/
theorem C74_refuted :
    (∃ r o src, compile demoEnv demoHash r = some o ∧ src = sourcesOf (fun _ => []) [] [] [([], o.hint.1)] o ∧
      (Go.tables (fun p => { noRe with src := p }) noRe noRe noRe src).map (fun T => (T.vrIdx.map (fun w => w.range64), T.vrRe.map (·.src))) =
        some ([0x1, 0x100000002], [ascii "x", ascii "y[^a-z0-9]+", ascii "z[^a-z0-9]+"]) ∧
      r.vendor.map (·.regex) = [[ascii "x`),regexp.MustCompile(`y"], [ascii "z"]]) ∧
    (∃ r o, compile demoEnv demoHash r = some o ∧ Go.file (emitOS [] o.os.1 o.os.2) = none ∧ r.os.map (·.version) = [ascii "$128"]) ∧
    (∃ r o, compile demoEnv (fun _ => 1) r = some o ∧
      ((Go.file (emitHint [] [([], o.hint.1)] o.hint.2)).bind fun d => Go.value d "__hr_idx" Go.mapIntEntry) = none ∧
      r.hint = [[(ascii "a", ascii "A"), (ascii "b", ascii "B")]]) := by
  refine ⟨?_, ?_, ?_⟩
  · obtain ⟨o, e⟩ := Option.isSome_iff_exists.mp (by decide +kernel : (compile demoEnv demoHash quoteRules).isSome = true)
    refine ⟨quoteRules, o, _, e, rfl, ?_, rfl⟩
    exact (by decide +kernel : ∀ o ∈ compile demoEnv demoHash quoteRules, (Go.tables (fun p => { noRe with src := p }) noRe noRe noRe
      (sourcesOf (fun _ => []) [] [] [([], o.hint.1)] o)).map (fun T => (T.vrIdx.map (fun w => w.range64), T.vrRe.map (·.src))) =
        some ([0x1, 0x100000002], [ascii "x", ascii "y[^a-z0-9]+", ascii "z[^a-z0-9]+"])) o e
  · obtain ⟨o, e⟩ := Option.isSome_iff_exists.mp (by decide +kernel : (compile demoEnv demoHash refRules).isSome = true)
    refine ⟨refRules, o, e, ?_, rfl⟩
    exact (by decide +kernel : ∀ o ∈ compile demoEnv demoHash refRules, Go.file (emitOS [] o.os.1 o.os.2) = none) o e
  · obtain ⟨o, e⟩ := Option.isSome_iff_exists.mp (by decide +kernel : (compile demoEnv (fun _ => 1) hintRules).isSome = true)
    refine ⟨hintRules, o, e, ?_, rfl⟩
    exact (by decide +kernel : ∀ o ∈ compile demoEnv (fun _ => 1) hintRules,
      ((Go.file (emitHint [] [([], o.hint.1)] o.hint.2)).bind fun d => Go.value d "__hr_idx" Go.mapIntEntry) = none) o e

end Verif.Compiler

import Verif.Proofs.VersionGetters
import Verif.Props.Version
import Verif.Props.Transparency
import Verif.Model.Cache
/-
C73: the version getters give the parsed version strings.
-/
namespace Verif

section
variable {T : Tables} {H : Bytes → UInt64}

/-- C73: GetBrowserVersion is what Parse makes of GetBrowserVersionString; one panics exactly when the other does. -/
theorem C73_browser (q : Req) :
    uncached T H .browserVersion q = (uncached T H .browserVersionString q).bind fun
      | .text s => some (.version (({} : Version).parse s).1)
      | _ => none := by
  have e1 : uncached T H .browserVersion q = ((getBrowserVersion T).null (q.newCtx H)).2.map .version := congrArg Prod.snd (null_map _ _ _)
  have e2 : uncached T H .browserVersionString q = ((getBrowserVersionString T).null (q.newCtx H)).2.map .text := congrArg Prod.snd (null_map _ _ _)
  have h : ((getBrowserVersion T).null (q.newCtx H)).2 = ((getBrowserVersionString T).null (q.newCtx H)).2.map fun s => (({} : Version).parse s).1 := by
    have := null_version (get := fun c => c.clientVersion) (set := fun c v => { c with clientVersion := v }) (c := q.newCtx H) (str := getBrowserVersionString T)
      (fun _ _ => rfl) (same_browserString (fun c c' h => (frameC_fields h).2.2.2.2.2.1) fun _ => rfl) (by rw [newCtx_eq])
    rw [newCtx_eq] at this ⊢
    exact this
  rw [e1, e2, h]
  cases ((getBrowserVersionString T).null (q.newCtx H)).2 <;> rfl

/-- C73: the same for the engine. -/
theorem C73_engine (q : Req) :
    uncached T H .engineVersion q = (uncached T H .engineVersionString q).bind fun
      | .text s => some (.version (({} : Version).parse s).1)
      | _ => none := by
  have e1 : uncached T H .engineVersion q = ((getEngineVersion T).null (q.newCtx H)).2.map .version := congrArg Prod.snd (null_map _ _ _)
  have e2 : uncached T H .engineVersionString q = ((getEngineVersionString T).null (q.newCtx H)).2.map .text := congrArg Prod.snd (null_map _ _ _)
  have h : ((getEngineVersion T).null (q.newCtx H)).2 = ((getEngineVersionString T).null (q.newCtx H)).2.map fun s => (({} : Version).parse s).1 := by
    have := null_version (get := fun c => c.engineVersion) (set := fun c v => { c with engineVersion := v }) (c := q.newCtx H) (str := getEngineVersionString T)
      (fun _ _ => rfl) (same_engineString (fun c c' h => (frameC_fields h).2.2.2.2.2.2.1) fun _ => rfl) (by rw [newCtx_eq])
    rw [newCtx_eq] at this ⊢
    exact this
  rw [e1, e2, h]
  cases ((getEngineVersionString T).null (q.newCtx H)).2 <;> rfl

/-- C73: the same for the OS. -/
theorem C73_os (q : Req) :
    uncached T H .osVersion q = (uncached T H .osVersionString q).bind fun
      | .text s => some (.version (({} : Version).parse s).1)
      | _ => none := by
  have e1 : uncached T H .osVersion q = ((getOSVersion T).null (q.newCtx H)).2.map .version := congrArg Prod.snd (null_map _ _ _)
  have e2 : uncached T H .osVersionString q = ((getOSVersionString T).null (q.newCtx H)).2.map .text := congrArg Prod.snd (null_map _ _ _)
  have h : ((getOSVersion T).null (q.newCtx H)).2 = ((getOSVersionString T).null (q.newCtx H)).2.map fun s => (({} : Version).parse s).1 := by
    have := null_version (get := fun c => c.osVersion) (set := fun c v => { c with osVersion := v }) (c := q.newCtx H) (str := getOSVersionString T)
      (fun _ _ => rfl) same_osString (by rw [newCtx_eq])
    rw [newCtx_eq] at this ⊢
    exact this
  rw [e1, e2, h]
  cases ((getOSVersionString T).null (q.newCtx H)).2 <;> rfl

/-- The getter of a parsed version and the one of its text. -/
inductive VersionPair : Getter → Getter → Prop where
  | browser : VersionPair .browserVersion .browserVersionString
  | engine : VersionPair .engineVersion .engineVersionString
  | os : VersionPair .osVersion .osVersionString

theorem version_of {g gs : Getter} (hp : VersionPair g gs) {q : Req} {s : Bytes} (h : uncached T H gs q = some (.text s)) :
    uncached T H g q = some (.version (({} : Version).parse s).1) := by
  cases hp with
  | browser => rw [C73_browser, h]; rfl
  | engine => rw [C73_engine, h]; rfl
  | os => rw [C73_os, h]; rfl

/-- C73: if the text is one to four numbers below 2^31 joined by dots, they are the components, the missing ones being 0. -/
theorem C73_components {g gs : Getter} (hp : VersionPair g gs) {q : Req} (ds : List Bytes) (h1 : ds ≠ []) (hl : ds.length ≤ 4)
    (hd : ∀ d ∈ ds, d ≠ [] ∧ d.all isDigit = true ∧ decVal d < 2 ^ 31) (h : uncached T H gs q = some (.text (List.intercalate (ascii ".") ds))) :
    ∃ v, uncached T H g q = some (.version v) ∧ Spec.comps v = ds.map (fun d => (decVal d : Int)) ++ List.replicate (4 - ds.length) 0 ∧ v.suffix = [] := by
  obtain ⟨v, h2, h3, h4⟩ := C33_parse_dotted {} ds h1 hl hd
  refine ⟨v, ?_, h3, h4⟩
  rw [version_of hp h]
  exact congrArg (fun x : Version × Bool => some (Ans.version x.1)) h2

/-- The numbers before the first piece that is none. -/
theorem loop_before (n i : Nat) (v : Version) (pre : List (Bytes × Int)) (bad tail : Bytes) (hn : pre.length < n)
    (hpre : ∀ d ∈ pre, (46 : UInt8) ∉ d.1 ∧ atoi d.1 = some d.2) (hb : (46 : UInt8) ∉ bad) (ha : atoi bad = none) (hne : bad ≠ [] ∨ tail ≠ [])
    (ht : tail = [] ∨ ∃ r, tail = 46 :: r) :
    (Version.parseLoop n i v ((pre.map (·.1 ++ [46])).flatten ++ bad ++ tail)).1 = Version.assign i v (pre.map Prod.snd) := by
  induction pre generalizing n i v with
  | nil =>
    cases n with
    | zero => simp at hn
    | succ n =>
      simp only [List.map_nil, List.flatten_nil, List.nil_append]
      rcases ht with rfl | ⟨r, rfl⟩
      · rw [List.append_nil, Version.parseLoop_last n i v bad hb (by rcases hne with h | h; exact h; exact absurd rfl h), ha]; rfl
      · rw [Version.parseLoop_dot n i v bad r hb, ha]; rfl
  | cons d pre ih =>
    cases n with
    | zero => simp at hn
    | succ n =>
      have hrw : ((List.map (·.1 ++ [46]) (d :: pre)).flatten ++ bad ++ tail) =
          d.1 ++ 46 :: ((pre.map (·.1 ++ [46])).flatten ++ bad ++ tail) := by simp
      rw [hrw, Version.parseLoop_dot n i v d.1 _ (hpre d (by simp)).1, (hpre d (by simp)).2]
      exact ih n (i + 1) _ (by simp at hn; omega) (fun d' h' => hpre d' (by simp [h']))

/-- C73: if one of the first four pieces of the text is not a number (`bad`, not empty, or empty but followed by a dot), the pieces before it are the
components and the others are 0; nobody is told. -/
theorem C73_garbage {g gs : Getter} (hp : VersionPair g gs) {q : Req} (ds : List Bytes) (bad tail : Bytes) (hl : ds.length < 4)
    (hd : ∀ d ∈ ds, d ≠ [] ∧ d.all isDigit = true ∧ decVal d < 2 ^ 31) (hb : (46 : UInt8) ∉ bad) (ha : atoi bad = none) (hne : bad ≠ [] ∨ tail ≠ [])
    (ht : tail = [] ∨ ∃ r, tail = 46 :: r) (h : uncached T H gs q = some (.text ((ds.map (· ++ ascii ".")).flatten ++ bad ++ tail))) :
    ∃ v, uncached T H g q = some (.version v) ∧ Spec.comps v = ds.map (fun d => (decVal d : Int)) ++ List.replicate (4 - ds.length) 0 ∧ v.suffix = [] := by
  have hs : (ds.map (· ++ ascii ".")).flatten ++ bad ++ tail ≠ [] := by
    rcases hne with h | h <;> simp [h]
  have hmap : (ds.map (· ++ ascii ".")) = ((ds.map fun d => (d, (decVal d : Int))).map (·.1 ++ [46])) := by
    rw [List.map_map]; rfl
  have hpre : ∀ d ∈ ds.map (fun d => (d, (decVal d : Int))), (46 : UInt8) ∉ d.1 ∧ atoi d.1 = some d.2 := by
    intro d hm
    obtain ⟨d', hm', rfl⟩ := List.mem_map.1 hm
    obtain ⟨a, b, c⟩ := hd d' hm'
    exact ⟨(digits_not_mem b).1, atoi_digits a b (by show decVal d' < _; omega)⟩
  have herr : (Version.parseLoop 4 0 {} ((ds.map (· ++ ascii ".")).flatten ++ bad ++ tail)).2.2 = true :=
    loop_err 4 0 {} ds bad tail hl (fun d hm => (digits_not_mem (hd d hm).2.1).1) hb ha hne ht
  have hval := loop_before 4 0 {} (ds.map fun d => (d, (decVal d : Int))) bad tail (by simpa using hl) hpre hb ha hne ht
  rw [← hmap] at hval
  have hparse : (({} : Version).parse ((ds.map (· ++ ascii ".")).flatten ++ bad ++ tail)).1 = Version.assign 0 {} (ds.map fun d => (decVal d : Int)) := by
    unfold Version.parse
    rw [if_neg (by simp), if_pos (List.length_pos_iff.2 hs)]
    rw [List.map_map] at hval
    revert hval herr
    rcases Version.parseLoop 4 0 {} ((ds.map (· ++ ascii ".")).flatten ++ bad ++ tail) with ⟨a, b, c⟩
    intro herr hval
    simp only at herr hval
    subst herr
    exact hval
  refine ⟨_, version_of hp h, ?_, ?_⟩
  · rw [hparse]
    have := comps_assign (ds.map fun d => (decVal d : Int)) (by simp; omega) (by
      intro d hm
      obtain ⟨d', hm', rfl⟩ := List.mem_map.1 hm
      obtain ⟨_, _, c⟩ := hd d' hm'
      omega)
    rw [List.length_map] at this
    exact this
  · rw [hparse, (Version.assign_p _ _ _).2]

/-- C73: without a version text the version is 0, printed as "0". -/
theorem C73_none {g gs : Getter} (hp : VersionPair g gs) {q : Req} (h : uncached T H gs q = some (.text [])) :
    ∃ v, uncached T H g q = some (.version v) ∧ Spec.comps v = [0, 0, 0, 0] ∧ v.string = ascii "0" :=
  ⟨_, version_of hp h, by decide, by decide⟩

/-- C73: a version with three or fewer numbers and a positive first one is printed with all four. -/
theorem C73_printed {g gs : Getter} (hp : VersionPair g gs) {q : Req} (ds : List Bytes) (h1 : ds ≠ []) (hl : ds.length ≤ 4)
    (hd : ∀ d ∈ ds, d ≠ [] ∧ d.all isDigit = true ∧ decVal d < 2 ^ 31) (h : uncached T H gs q = some (.text (List.intercalate (ascii ".") ds)))
    (hm : ∀ d, ds.head? = some d → 0 < decVal d) :
    ∃ v, uncached T H g q = some (.version v) ∧
      v.string = List.intercalate (ascii ".") ((ds.map decVal ++ List.replicate (4 - ds.length) 0).map natDec) := by
  obtain ⟨v, h2, h3, h4⟩ := C73_components hp ds h1 hl hd h
  refine ⟨v, h2, ?_⟩
  have hz : Spec.comps v = (ds.map decVal ++ List.replicate (4 - ds.length) 0).map Int.ofNat := by
    rw [h3, List.map_append, List.map_map, List.map_replicate]; rfl
  generalize hL : ds.map decVal ++ List.replicate (4 - ds.length) 0 = L at hz
  have hpos : ∃ n L', L = n :: L' ∧ 0 < n := by
    cases ds with
    | nil => exact absurd rfl h1
    | cons d ds => exact ⟨decVal d, _, by rw [← hL]; rfl, hm d rfl⟩
  obtain ⟨n, L', rfl, hn⟩ := hpos
  simp only [Spec.comps, List.map_cons, List.cons.injEq] at hz
  obtain ⟨e1, e2⟩ := hz
  have hmaj : v.major > 0 := by
    show (0 : Int32) < v.major
    rw [Int32.lt_iff_toInt_lt, e1]
    show (0 : Int) < (n : Int)
    omega
  rw [string_major_pos v hmaj h4, e1]
  have hdec : ∀ k : Nat, intDec (Int.ofNat k) = natDec k := fun k => by
    show (if (k : Int) < 0 then _ else natDec (k : Int).natAbs) = _
    rw [if_neg (by omega), Int.natAbs_natCast]
  have hlen : L'.length = 3 := by have := congrArg List.length e2; simpa using this.symm
  match L', e2, hlen with
  | [a, b, c], e2, _ =>
    simp only [List.map_cons, List.map_nil, List.cons.injEq, and_true] at e2
    obtain ⟨e2, e3, e4⟩ := e2
    rw [e2, e3, e4, hdec, hdec, hdec, hdec]
    rfl

end

/-! ### The hypotheses are met -/

example : ∃ v, uncached Demo.tables fnv1 .browserVersion { ua := Demo.phone } = some (.version v) ∧
    Spec.comps v = [96, 0, 4, 0] ∧ v.suffix = [] :=
  C73_components .browser [ascii "96", ascii "0", ascii "4"] (by decide) (by decide) (by decide) (by decide +kernel)

/-- A phone with a strange version. -/
def Demo.odd : Bytes := ascii "Mozilla/5.0 (Linux; Android 10; Pixel 4) Chrome/96..4 Mobile"

example : ∃ v, uncached Demo.tables fnv1 .browserVersion { ua := Demo.odd } = some (.version v) ∧ Spec.comps v = [96, 0, 0, 0] ∧ v.suffix = [] :=
  C73_garbage (T := Demo.tables) (H := fnv1) (q := { ua := Demo.odd }) .browser [ascii "96"] [] (ascii ".4") (by decide) (by decide) (by decide) (by decide)
    (by decide) (.inr ⟨_, rfl⟩) (by decide +kernel)

/-- GetBrowserVersionString and the text of GetBrowserVersion differ. -/
theorem C73_text_refuted : ∃ (T : Tables) (H : Bytes → UInt64) (q : Req) (s : Bytes) (v : Version), uncached T H .browserVersionString q = some (.text s) ∧
    uncached T H .browserVersion q = some (.version v) ∧ v.string ≠ s :=
  ⟨Demo.tables, fnv1, { ua := Demo.phone }, ascii "96.0.4", _, by decide +kernel, version_of .browser (s := ascii "96.0.4") (by decide +kernel), by decide +kernel⟩

example : ∃ v, uncached Demo.tables fnv1 .browserVersion { ua := Demo.phone } = some (.version v) ∧ v.string = ascii "96.0.4.0" :=
  (C73_printed (T := Demo.tables) (H := fnv1) (q := { ua := Demo.phone }) .browser [ascii "96", ascii "0", ascii "4"] (by decide) (by decide) (by decide)
    (by decide +kernel) (by decide)).imp fun _ h => ⟨h.1, h.2.trans (by decide +kernel)⟩

end Verif

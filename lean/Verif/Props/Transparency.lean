import Verif.Proofs.Answers
import Verif.Spec.Demo
import Verif.Props.Codec
/-
Properties of concurrent, cached detection: C19 (transparency), C51 (custom caches).
-/
namespace Verif

section
variable {T : Tables} {H : Bytes → UInt64}

/-! ### C19 -/

/-- C19, filters may differ: in every interleaving of any number of contexts over any honest cache, every answer (other than GetModel and
the parsed versions) is the uncached answer under the filters of some getter call made for the same user agent before. User agents
on which uncached detection panics are excluded. -/
theorem C19_some_filter {s : Sys} (hr : Sys.Reach T H s) {pre post : List Event} {t : Nat} {g : Getter} {r : Option (Option Ans)}
    (hlog : s.log = pre ++ .ret t (.get g) r :: post)
    (hg : g ≠ .model ∧ g ≠ .browserVersion ∧ g ≠ .engineVersion ∧ g ≠ .osVersion)
    (hok : ∀ q', Used pre q' → q'.ua = (reqOf pre t).ua → uncached T H g ((reqOf pre t).withFiltersOf q') ≠ none) :
    ∃ q' a, Used pre q' ∧ q'.ua = (reqOf pre t).ua ∧ uncached T H g ((reqOf pre t).withFiltersOf q') = some a ∧ r = some (some a) := by
  have hu := used_of_answer hr hlog
  obtain ⟨x, c, hx, hp⟩ := answer_inv hr hlog
  have hv : g.isV = false := by
    obtain ⟨_, h1, h2, h3⟩ := hg
    cases g <;> simp_all [Getter.isV]
  obtain ⟨m, d, ⟨q1, u1, ua1, rfl⟩, ⟨q2, u2, ua2, rfl⟩, he⟩ := hp.some_mask hg.1 hv (good_of hg.1 hu hok)
  have fin : ∀ q', Used pre q' → q'.ua = (reqOf pre t).ua → x = outAns T H ((reqOf pre t).withFiltersOf q') g →
      ∃ q' a, Used pre q' ∧ q'.ua = (reqOf pre t).ua ∧ uncached T H g ((reqOf pre t).withFiltersOf q') = some a ∧ r = some (some a) := by
    intro q' h1 h2 h3
    obtain ⟨a, ha⟩ := Option.ne_none_iff_exists'.mp (hok q' h1 h2)
    refine ⟨q', a, h1, h2, ha, ?_⟩
    rw [hx, h3, ← uncached_eq g hg.1, ha]; rfl
  cases hD : g.isD with
  | false => exact fin q1 u1 ua1 (he.trans (outAns_C hD _ _ _ _))
  | true =>
    have hC : g.isC = false := by cases g <;> simp_all [Getter.isC, Getter.isD]
    exact fin q2 u2 ua2 (he.trans (outAns_D hC _ _ _ _))

/-- C19, one common filter: if every getter call made so far for this user agent used the same filters, then every answer but that of
GetModel is exactly the uncached answer, in every interleaving over any honest cache. -/
theorem C19_common_filter {s : Sys} (hr : Sys.Reach T H s) {pre post : List Event} {t : Nat} {g : Getter} {r : Option (Option Ans)}
    (hlog : s.log = pre ++ .ret t (.get g) r :: post) (hg : g ≠ .model)
    (hf : ∀ q', Used pre q' → q'.ua = (reqOf pre t).ua → q'.mc = (reqOf pre t).mc ∧ q'.md = (reqOf pre t).md)
    {a : Ans} (hok : uncached T H g (reqOf pre t) = some a) : r = some (some a) := by
  have hu := used_of_answer hr hlog
  obtain ⟨x, c, hx, hp⟩ := answer_inv hr hlog
  have hw : ∀ q', Used pre q' → q'.ua = (reqOf pre t).ua → (reqOf pre t).withFiltersOf q' = reqOf pre t := by
    intro q' h1 h2
    obtain ⟨h3, h4⟩ := hf q' h1 h2
    simp [Req.withFiltersOf, h3, h4]
  have := hp.uniform hg (good_of hg hu fun q' h1 h2 => by rw [hw q' h1 h2, hok]; simp)
    (fun m ⟨q', h1, h2, h3⟩ => by rw [← h3]; exact (hf q' h1 h2).1) (fun d ⟨q', h1, h2, h3⟩ => by rw [← h3]; exact (hf q' h1 h2).2)
  rw [hx, this, ← uncached_eq g hg, hok]; rfl

/-! A concrete case: two contexts ask for the same user agent, the second is served from the cache. -/

/-- A phone running Chrome on Android. -/
def Demo.phone : Bytes := ascii "Mozilla/5.0 (Linux; Android 10; Pixel 4) Chrome/96.0.4 Mobile"

/-- Context 0 detects the browser and the device, then context 1 asks for the browser version and the brand. -/
def Demo.shared : Sys := Sys.init.execs Demo.tables Demo.hash
  [(0, .setUserAgent Demo.phone), (0, .get .browser), (0, .get .brand), (1, .setUserAgent Demo.phone), (1, .get .browserVersionString), (1, .get .brand)]

theorem Demo.shared_reach : Sys.Reach Demo.tables Demo.hash Demo.shared := reach_execs _ .init

theorem Demo.shared_log : Demo.shared.log = Demo.shared.log.take 11 ++ .ret 1 (.get .brand) (some (some (.text (ascii "Google")))) :: [] := by decide +kernel

/-- C19_common_filter applies to that run: whatever the cached answer is, it must be "Google" because the uncached one is. -/
example (r : Option (Option Ans)) (h : Demo.shared.log = Demo.shared.log.take 11 ++ .ret 1 (.get .brand) r :: []) :
    r = some (some (.text (ascii "Google"))) := by
  have hu : uncached Demo.tables Demo.hash .brand (reqOf (Demo.shared.log.take 11) 1) = some (.text (ascii "Google")) := by decide +kernel
  refine C19_common_filter Demo.shared_reach h (by decide) ?_ hu
  have : ∀ q' ∈ usedList [] (Demo.shared.log.take 11), q'.mc = (reqOf (Demo.shared.log.take 11) 1).mc ∧ q'.md = (reqOf (Demo.shared.log.take 11) 1).md := by
    decide +kernel
  exact fun q' h _ => this q' (used_mem h)

/-- Context 0 stored two entries: client, then client and device; context 1 none. -/
example : Demo.shared.hist.length = 2 := by decide +kernel

/-- C19_some_filter applies as well. -/
example : ∃ q' a, Used (Demo.shared.log.take 11) q' ∧ q'.ua = Demo.phone ∧
    uncached Demo.tables Demo.hash .brand ((reqOf (Demo.shared.log.take 11) 1).withFiltersOf q') = some a ∧
    some (some (Ans.text (ascii "Google"))) = some (some a) := by
  have e : (reqOf (Demo.shared.log.take 11) 1).ua = Demo.phone := by decide +kernel
  rw [← e]
  refine C19_some_filter Demo.shared_reach Demo.shared_log (by decide) ?_
  have : ∀ q' ∈ usedList [] (Demo.shared.log.take 11), uncached Demo.tables Demo.hash .brand ((reqOf (Demo.shared.log.take 11) 1).withFiltersOf q') ≠ none := by
    decide +kernel
  exact fun q' h _ => this q' (used_mem h)

/-! ### C51 -/

/-- The method asks the cache for `k` first, and panics if that answers a nil entry. -/
private def NilPanics {α : Type} (k : Bytes) (x : M α) (c : Ctx) : Prop := ∃ f c', x c = .get k f ∧ f .nilEntry = .ret (c', none)

private theorem NilPanics.bind {α β : Type} {k : Bytes} {x : M α} {c : Ctx} (h : NilPanics k x c) (f : α → M β) : NilPanics k (x >>= f) c := by
  obtain ⟨g, c', h1, h2⟩ := h
  refine ⟨fun r => (g r).bind fun r => match r with | (c', some a) => f a c' | (c', none) => .ret (c', none), c', by rw [M.bind_apply, h1]; rfl, ?_⟩
  show (g .nilEntry).bind _ = _
  rw [h2]; rfl

private theorem NilPanics.ensure {c : Ctx} {flag : Nat} {body : M Bool} (hb : c.check flag = false) :
    NilPanics c.src (ensure flag (parseFrame flag body)) c := by
  unfold Verif.ensure
  show NilPanics c.src (M.when _ _) c
  unfold M.when
  rw [if_pos (by rw [hb]; decide)]
  refine NilPanics.bind ?_ _
  exact ⟨_, c, rfl, rfl⟩

private theorem NilPanics.version {c : Ctx} {p : Bool} (hp : p = false) {str : M Bytes} {f : Bytes → M Unit} (h : NilPanics c.src str c) {rest : Unit → M Version} :
    NilPanics c.src (M.when (¬ p = true) (str >>= f) >>= rest) c := by
  subst hp
  exact (h.bind f).bind rest

/-- C51, misbehaving caches: if a cache answers a nil entry with a nil error, the first detection getter on a fresh request panics. -/
theorem C51_nil_entry_panics (g : Getter) (hg : g ≠ .userAgent) (q : Req) :
    ∃ f c, g.prog T (q.newCtx H) = .get q.ua f ∧ f .nilEntry = .ret (c, none) := by
  have hs : (q.newCtx H).src = q.ua := by rw [newCtx_eq]
  have hb : ∀ i, (q.newCtx H).check i = false := by rw [newCtx_eq]; simp [Ctx.check]
  have hv : (q.newCtx H).clientVersion.p = false ∧ (q.newCtx H).engineVersion.p = false ∧ (q.newCtx H).osVersion.p = false := by
    rw [newCtx_eq]; simp
  show NilPanics q.ua (g.prog T) (q.newCtx H)
  rw [← hs]
  have e1 : NilPanics (q.newCtx H).src (Verif.ensure flagClientDetect (parseClient T)) (q.newCtx H) := .ensure (hb _)
  have e2 : NilPanics (q.newCtx H).src (Verif.ensure flagOSDetect (parseOS T)) (q.newCtx H) := .ensure (hb _)
  have e3 : NilPanics (q.newCtx H).src (Verif.ensure flagDeviceDetect (parseDevice T)) (q.newCtx H) := .ensure (hb _)
  cases g with
  | userAgent => exact absurd rfl hg
  | clientType => exact (e1.bind _).bind _
  | browser => exact (e1.bind _).bind _
  | browserVersionString => exact (e1.bind _).bind _
  | engine => exact (e1.bind _).bind _
  | engineVersionString => exact (e1.bind _).bind _
  | browserVersion => exact (NilPanics.version hv.1 (e1.bind _)).bind _
  | engineVersion => exact (NilPanics.version hv.2.1 (e1.bind _)).bind _
  | deviceType => exact (e3.bind _).bind _
  | brand => exact (e3.bind _).bind _
  | model => exact (e3.bind _).bind _
  | os => exact (e2.bind _).bind _
  | osVersionString => exact (e2.bind _).bind _
  | osVersion => exact (NilPanics.version hv.2.2 (e2.bind _)).bind _

example : ∃ f c, Getter.browser.prog Demo.tables (({ ua := Demo.phone } : Req).newCtx Demo.hash) = .get Demo.phone f ∧ f .nilEntry = .ret (c, none) :=
  C51_nil_entry_panics .browser (by decide) { ua := Demo.phone }

/-- C51, serialising caches: an entry that went through MarshalTo and Unmarshal is an honest answer. -/
theorem C51_serialised (e r : CacheEntry) (buf : Bytes) (hdata : e.data.length < 2 ^ 32) (hbuf : e.size ≤ buf.length) :
    ∃ out n e', e.marshalTo buf = some (out, n, none) ∧ r.unmarshal out = some (e', none) ∧ SameButKey e' e := by
  obtain ⟨out, n, h1, h2, _⟩ := C01_roundtrip e r buf hdata hbuf
  exact ⟨out, n, e, h1, h2, rfl⟩

end
end Verif
